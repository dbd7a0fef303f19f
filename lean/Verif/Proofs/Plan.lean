import Verif.Proofs.AlterAll
import Verif.Spec.Plan

/-! # The shape of a plan -/

namespace Mygrations
open Table MySQL

namespace Mygration

/-- the diff of one table (empty if there is none) -/
def diffOf [PyNum] (f t : Dict Table) (n : Str) : Diff :=
  match f.get? n, t.get? n with
  | some a, some b => match a.toSplit b with | .ok d => d | .error _ => ⟨[], [], []⟩
  | _, _ => ⟨[], [], []⟩

/-- what the update of a table does at once -/
def nowOf [PyNum] (cyc : List (Str × Str)) (f t : Dict Table) (n : Str) : List Alter :=
  alterIf n (stripCycled cyc n (diffOf f t n).removedFks) ++ alterIf n (diffOf f t n).kitchenSink

/-- what the update of a table does later -/
def laterOf [PyNum] (cyc : List (Str × Str)) (f t : Dict Table) (n : Str) : List Alter :=
  alterIf n (stripCycled cyc n (diffOf f t n).fks)

theorem updateTables_eq [PyNum] {cyc : List (Str × Str)} {f t : Dict Table} (hf : KeyedTables f) :
    ∀ {ns : List Str} {now later : List Alter}, updateTables cyc f t ns = .ok (now, later) →
      now = ns.flatMap (nowOf cyc f t) ∧ later = ns.flatMap (laterOf cyc f t) ∧
      ∀ n ∈ ns, ∃ a b, f.get? n = some a ∧ t.get? n = some b ∧ a.toSplit b = .ok (diffOf f t n) := by
  intro ns
  induction ns with
  | nil => intro now later h; simp only [updateTables, Except.ok.injEq, Prod.mk.injEq] at h; simp [← h.1, ← h.2]
  | cons n ns ih =>
    intro now later h
    simp only [updateTables] at h
    cases ha : f.get? n with
    | none => simp [ha] at h
    | some a =>
      cases hb : t.get? n with
      | none => simp [ha, hb] at h
      | some b =>
        simp only [ha, hb, updateTable] at h
        cases hd : a.toSplit b with
        | error e => simp [hd] at h
        | ok d =>
          simp only [hd] at h
          cases hr : updateTables cyc f t ns with
          | error e => simp [hr] at h
          | ok p =>
            obtain ⟨now', later'⟩ := p
            obtain ⟨h1, h2, h3⟩ := ih hr
            simp only [hr, Except.ok.injEq, Prod.mk.injEq] at h
            have hname : a.name = n := hf.name n a (Dict.mem_of_get? ha)
            have hdiff : diffOf f t n = d := by simp [diffOf, ha, hb, hd]
            refine ⟨?_, ?_, ?_⟩
            · rw [← h.1, h1, List.flatMap_cons, nowOf, hdiff, hname]
            · rw [← h.2, h2, List.flatMap_cons, laterOf, hdiff, hname]
            · intro m hm
              rcases List.mem_cons.mp hm with rfl | hm
              · exact ⟨a, b, ha, hb, by rw [hdiff, hd]⟩
              · exact h3 m hm

/-- the tables which are updated -/
abbrev updated (f t : Dict Table) : List Str := overlap f t

/-- a plan and its parts -/
theorem process_eq [PyNum] {t : Dict Table} {from? : Option (Dict Table)} {b : Bool} {ops : List Op}
    (hf : KeyedTables (from?.getD [])) (h : process t from? b = .ok ops) :
    let f := from?.getD []
    let cs := cycles from? t
    let cyc := cycledNames cs
    ops = (if b then [.disableChecks] else []) ++
      (added f t).filterMap (fun n => (t.get? n).map .createTable) ++
      (groupAlters (cycleDrops cs)).map .alter ++
      ((overlap f t).flatMap (nowOf cyc f t)).map .alter ++ ((overlap f t).flatMap (laterOf cyc f t)).map .alter ++
      (groupAlters (cycleAdds cs [])).map .alter ++
      (removed f t).map .removeTable ++
      (if b then [.enableChecks] else []) ∧
    ∀ n ∈ overlap f t, ∃ a b, f.get? n = some a ∧ t.get? n = some b ∧ a.toSplit b = .ok (diffOf f t n) := by
  intro f cs cyc
  simp only [process] at h
  cases hu : updateTables (cycledNames (cycles from? t)) (from?.getD []) t (overlap (from?.getD []) t) with
  | error e => simp [hu] at h
  | ok p =>
    obtain ⟨now, later⟩ := p
    obtain ⟨h1, h2, h3⟩ := updateTables_eq hf hu
    simp only [hu, Except.ok.injEq] at h
    refine ⟨?_, h3⟩
    rw [← h, h1, h2]

/-! ## What the parts of a diff are made of -/

/-- a foreign-key operation -/
def isFkOp : AlterOp → Bool
  | .addConstraint _ | .changeConstraint _ | .removeConstraint _ => true
  | _ => false

theorem addedColumnOps_noFk (t : Table) : ∀ (ks : List Str) (ops : List AlterOp), addedColumnOps t ks = .ok ops →
    ∀ o ∈ ops, isFkOp o = false := by
  intro ks
  induction ks with
  | nil => intro ops h; simp only [addedColumnOps, Except.ok.injEq] at h; simp [← h]
  | cons k ks ih =>
    intro ops h
    simp only [addedColumnOps] at h
    cases hc : t.columns.get? k with
    | none => simp [hc] at h
    | some c =>
      simp only [hc] at h
      cases hp : t.columnBefore k with
      | error e => simp [hp] at h
      | ok p =>
        simp only [hp] at h
        cases hr : addedColumnOps t ks with
        | error e => simp [hr, Except.map] at h
        | ok r =>
          simp only [hr, Except.map, Except.ok.injEq] at h
          intro o ho
          rw [← h] at ho
          rcases List.mem_cons.mp ho with rfl | ho
          · rfl
          · exact ih r hr o ho

theorem changedColumnOps_noFk [PyNum] (s t : Table) : ∀ (ks : List Str) (ops : List AlterOp), changedColumnOps s t ks = .ok ops →
    ∀ o ∈ ops, isFkOp o = false := by
  intro ks
  induction ks with
  | nil => intro ops h; simp only [changedColumnOps, Except.ok.injEq] at h; simp [← h]
  | cons k ks ih =>
    intro ops h
    simp only [changedColumnOps] at h
    cases hc : s.columns.get? k with
    | none => simp [hc] at h
    | some c =>
      cases hd : t.columns.get? k with
      | none => simp [hc, hd] at h
      | some d =>
        simp only [hc, hd] at h
        by_cases hr : c.render = d.render
        · simp only [hr, if_true] at h; exact ih ops h
        · simp only [hr, if_false] at h
          cases hs : c.sameAs d with
          | error e => simp [hs] at h
          | ok b =>
            cases b with
            | true => simp only [hs] at h; exact ih ops h
            | false =>
              simp only [hs] at h
              cases hr : changedColumnOps s t ks with
              | error e => simp [hr, Except.map] at h
              | ok r =>
                simp only [hr, Except.map, Except.ok.injEq] at h
                intro o ho
                rw [← h] at ho
                rcases List.mem_cons.mp ho with rfl | ho
                · rfl
                · exact ih r hr o ho

theorem kitchenSink_noFk [PyNum] {s t : Table} {d : Diff} (h : s.toSplit t = .ok d) : ∀ o ∈ d.kitchenSink, isFkOp o = false := by
  simp only [toSplit] at h
  cases ha : addedColumnOps t (added s.columns t.columns) with
  | error e => simp [ha] at h
  | ok adds =>
    simp only [ha] at h
    cases hc : changedColumnOps s t (overlap s.columns t.columns) with
    | error e => simp [hc] at h
    | ok ch =>
      simp only [hc, Except.ok.injEq] at h
      intro o ho
      rw [← h] at ho
      simp only [List.mem_append] at ho
      rcases ho with ((ho | ho) | ho) | ho
      · exact addedColumnOps_noFk t _ _ ha o ho
      · exact changedColumnOps_noFk s t _ _ hc o ho
      · simp only [removedColumnOps, List.mem_filterMap] at ho
        obtain ⟨k, _, hk⟩ := ho
        cases hg : s.columns.get? k with
        | none => simp [hg] at hk
        | some c => simp only [hg, Option.map_some, Option.some.injEq] at hk; rw [← hk]; rfl
      · simp only [keyOps, List.mem_append, List.mem_filterMap] at ho
        rcases ho with (⟨k, _, hk⟩ | ⟨k, _, hk⟩) | ⟨k, _, hk⟩
        · cases hg : t.indexes.get? k with
          | none => simp [hg] at hk
          | some c => simp only [hg, Option.map_some, Option.some.injEq] at hk; rw [← hk]; rfl
        · cases hg : s.indexes.get? k with
          | none => simp [hg] at hk
          | some c => simp only [hg, Option.map_some, Option.some.injEq] at hk; rw [← hk]; rfl
        · cases hg : s.indexes.get? k with
          | none => simp [hg] at hk
          | some a =>
            cases hg' : t.indexes.get? k with
            | none => simp [hg, hg'] at hk
            | some b =>
              simp only [hg, hg'] at hk
              split at hk
              · simp at hk
              · split at hk
                · simp at hk
                · simp only [Option.some.injEq] at hk; rw [← hk]; rfl

theorem toSplit_fks [PyNum] {s t : Table} {d : Diff} (h : s.toSplit t = .ok d) :
    d.removedFks = removedFkOps s t ∧ d.fks = addedFkOps s t := by
  simp only [toSplit] at h
  cases ha : addedColumnOps t (added s.columns t.columns) with
  | error e => simp [ha] at h
  | ok adds =>
    simp only [ha] at h
    cases hc : changedColumnOps s t (overlap s.columns t.columns) with
    | error e => simp [hc] at h
    | ok ch =>
      simp only [hc, Except.ok.injEq] at h
      rw [← h]; exact ⟨rfl, rfl⟩

theorem kitchen_clauses {ops : List AlterOp} (h : ∀ o ∈ ops, isFkOp o = false) :
    droppedFks (ops.flatMap clauses) = [] ∧ addedFks (ops.flatMap clauses) = [] := by
  induction ops with
  | nil => simp
  | cons o ops ih =>
    obtain ⟨h1, h2⟩ := ih (fun x hx => h x (List.mem_cons_of_mem _ hx))
    have ho := h o List.mem_cons_self
    cases o <;> simp_all [clauses, isFkOp]

/-! ## Grouping by table -/

theorem get?_appendTo {V : Type} (d : Dict (List V)) (k : Str) (x : V) (j : Str) :
    Dict.get? (appendTo d k x) j = if k = j then some ((Dict.get? d k).getD [] ++ [x]) else Dict.get? d j := by
  unfold appendTo
  cases hk : Dict.get? d k with
  | some l => rw [Dict.get?_set]; rfl
  | none =>
    rw [Dict.get?_append]
    by_cases hj : k = j
    · subst hj; simp [hk, Dict.get?_cons]
    · simp only [Dict.get?_cons, hj, if_false]; cases Dict.get? d j <;> simp [Dict.get?]

theorem keys_appendTo {V : Type} (d : Dict (List V)) (k : Str) (x : V) :
    Dict.keys (appendTo d k x) = if k ∈ Dict.keys d then Dict.keys d else Dict.keys d ++ [k] := by
  unfold appendTo
  cases hk : Dict.get? d k with
  | some l => rw [Dict.keys_set_of_mem _ (Dict.mem_keys_of_get? hk), if_pos (Dict.mem_keys_of_get? hk)]
  | none => rw [Dict.get?_eq_none] at hk; rw [if_neg hk, Dict.keys_append]; rfl

/-- the dictionary behind `groupAlters` -/
def groups (l : List (Str × AlterOp)) : Dict (List AlterOp) :=
  l.foldl (fun d e => appendTo d e.1 e.2) []

theorem groups_aux (l : List (Str × AlterOp)) : ∀ d : Dict (List AlterOp), (Dict.keys d).Nodup →
    (Dict.keys (l.foldl (fun d e => appendTo d e.1 e.2) d)).Nodup ∧
    ∀ k, (Dict.get? (l.foldl (fun d e => appendTo d e.1 e.2) d) k).getD [] =
      (Dict.get? d k).getD [] ++ (l.filter (fun e => e.1 = k)).map Prod.snd := by
  induction l with
  | nil => intro d hd; simp [hd]
  | cons e l ih =>
    intro d hd
    have hd' : (Dict.keys (appendTo d e.1 e.2)).Nodup := by
      rw [keys_appendTo]
      by_cases hk : e.1 ∈ Dict.keys d
      · simpa [hk] using hd
      · simp only [hk, if_false]
        rw [List.nodup_append]
        refine ⟨hd, by simp, ?_⟩
        intro a ha b hb
        simp only [List.mem_singleton] at hb
        subst hb
        intro hab
        exact hk (hab ▸ ha)
    obtain ⟨h1, h2⟩ := ih _ hd'
    refine ⟨by simpa using h1, ?_⟩
    intro k
    simp only [List.foldl_cons]
    rw [h2 k, get?_appendTo]
    by_cases hk : e.1 = k
    · subst hk; simp
    · simp [hk]

theorem groups_nodup (l : List (Str × AlterOp)) : (Dict.keys (groups l)).Nodup := (groups_aux l [] (by simp)).1

theorem groups_get? (l : List (Str × AlterOp)) (k : Str) :
    (Dict.get? (groups l) k).getD [] = (l.filter (fun e => e.1 = k)).map Prod.snd := by
  have := (groups_aux l [] (by simp)).2 k
  simpa [groups, Dict.get?] using this

theorem groupAlters_eq (l : List (Str × AlterOp)) : groupAlters l = (groups l).map (fun e => ⟨e.1, e.2⟩) := rfl

theorem mem_groupAlters {l : List (Str × AlterOp)} {a : Alter} (h : a ∈ groupAlters l) :
    a.ops = (l.filter (fun e => e.1 = a.table)).map Prod.snd := by
  rw [groupAlters_eq, List.mem_map] at h
  obtain ⟨e, he, rfl⟩ := h
  have := Dict.get?_of_mem (groups_nodup l) (k := e.1) (v := e.2) he
  rw [← groups_get?, this]
  rfl

theorem groups_keys_aux (l : List (Str × AlterOp)) : ∀ (d : Dict (List AlterOp)) (k : Str),
    k ∈ Dict.keys (l.foldl (fun d e => appendTo d e.1 e.2) d) ↔ k ∈ Dict.keys d ∨ k ∈ l.map Prod.fst := by
  induction l with
  | nil => simp
  | cons e l ih =>
    intro d k
    simp only [List.foldl_cons]
    rw [ih, keys_appendTo]
    by_cases hk : e.1 ∈ Dict.keys d
    · simp only [hk, if_true, List.map_cons, List.mem_cons]
      constructor
      · rintro (h | h)
        · exact .inl h
        · exact .inr (.inr h)
      · rintro (h | h | h)
        · exact .inl h
        · exact .inl (h ▸ hk)
        · exact .inr h
    · simp [hk, or_assoc]

theorem mem_groups_keys {l : List (Str × AlterOp)} {k : Str} : k ∈ Dict.keys (groups l) ↔ k ∈ l.map Prod.fst := by
  have := groups_keys_aux l [] k
  simpa [groups] using this

theorem groupAlters_tables (l : List (Str × AlterOp)) : (groupAlters l).map Alter.table = Dict.keys (groups l) := by
  simp [groupAlters_eq, Dict.keys]

end Mygration

end Mygrations
