import Verif.Props.C63
import Verif.Props.C11

/-!
# C64: applying a plan leaves exactly the declared tables

Here, too, the files and the server are arbitrary.
-/

namespace Mygrations
open Command Table

/-! ## Specification -/

/-- Execute a statement, looking at the names of the tables only: a table is created if there is none of this name, and
everything else needs its table. -/
def namesExec (names : List Str) : Op → Option (List Str)
  | .createTable t => if t.name ∈ names then none else some (names ++ [t.name])
  | .removeTable n => if n ∈ names then some (names.filter (· ≠ n)) else none
  | .alter a => if a.table ∈ names then some names else none
  | .rowInsert t _ => if t ∈ names then some names else none
  | .rowUpdate t _ => if t ∈ names then some names else none
  | .rowDelete t _ => if t ∈ names then some names else none
  | .disableChecks => some names
  | .enableChecks => some names

/-- Execute statements one after the other. -/
def namesExecAll : List Str → List Op → Option (List Str)
  | names, [] => some names
  | names, op :: ops => (namesExec names op).bind (fun names => namesExecAll names ops)

/-! ## Proofs -/

theorem namesExecAll_append : ∀ (l l' : List Op) (ns : List Str), namesExecAll ns (l ++ l') = (namesExecAll ns l).bind (fun ns => namesExecAll ns l')
  | [], l', ns => rfl
  | o :: l, l', ns => by
    simp only [List.cons_append, namesExecAll]
    cases namesExec ns o with
    | none => rfl
    | some ns1 => exact namesExecAll_append l l' ns1

def createdNames (l : List Op) : List Str := l.filterMap (fun | .createTable t => some t.name | _ => none)

def droppedNames (l : List Op) : List Str := l.filterMap (fun | .removeTable n => some n | _ => none)

theorem names_drops : ∀ (l : List Op) (ns : List Str), (∀ o ∈ l, o.isDrop = true) → (droppedNames l).Nodup → (∀ n ∈ droppedNames l, n ∈ ns) →
    ∃ ns', namesExecAll ns l = some ns' ∧ ∀ n, n ∈ ns' ↔ n ∈ ns ∧ n ∉ droppedNames l
  | [], ns, _, _, _ => ⟨ns, rfl, fun n => by simp [droppedNames]⟩
  | o :: l, ns, hd, hn, hin => by
    have ho := hd o List.mem_cons_self
    cases o with
    | removeTable m =>
      have e : droppedNames (.removeTable m :: l) = m :: droppedNames l := rfl
      rw [e] at hn hin ⊢
      obtain ⟨hn1, hn2⟩ := List.nodup_cons.mp hn
      obtain ⟨ns', h1, h2⟩ := names_drops l (ns.filter (· ≠ m)) (fun x hx => hd x (List.mem_cons_of_mem _ hx)) hn2 (by
        intro n hnl
        rw [List.mem_filter]
        refine ⟨hin n (List.mem_cons_of_mem _ hnl), ?_⟩
        simp only [ne_eq, decide_not, Bool.not_eq_eq_eq_not, Bool.not_true, decide_eq_false_iff_not]
        intro e; exact hn1 (e ▸ hnl))
      refine ⟨ns', ?_, ?_⟩
      · simp only [namesExecAll, namesExec, if_pos (hin m List.mem_cons_self), Option.bind_some]
        exact h1
      · intro n
        rw [h2 n, List.mem_filter]
        simp only [ne_eq, decide_not, Bool.not_eq_eq_eq_not, Bool.not_true, decide_eq_false_iff_not, List.mem_cons, not_or]
        exact and_assoc
    | _ => cases ho

theorem names_structure : ∀ (l : List Op) (ns : List Str), (∀ o ∈ l, o.isToggle ∨ o.isCreate ∨ o.isAlter ∨ o.isDrop) →
    l.Pairwise (fun a b => a.isDrop = true → b.isDrop = true) → (createdNames l).Nodup → (droppedNames l).Nodup →
    (∀ n ∈ createdNames l, n ∉ ns) → (∀ n ∈ droppedNames l, n ∈ ns) → (∀ a, .alter a ∈ l → a.table ∈ ns) →
    ∃ ns', namesExecAll ns l = some ns' ∧ ∀ n, n ∈ ns' ↔ (n ∈ ns ∧ n ∉ droppedNames l) ∨ n ∈ createdNames l
  | [], ns, _, _, _, _, _, _, _ => ⟨ns, rfl, fun n => by simp [droppedNames, createdNames]⟩
  | o :: l, ns, hk, hp, hcn, hdn, hc, hd, ha => by
    obtain ⟨hp1, hp2⟩ := List.pairwise_cons.mp hp
    have hk2 : ∀ o ∈ l, o.isToggle ∨ o.isCreate ∨ o.isAlter ∨ o.isDrop := fun x hx => hk x (List.mem_cons_of_mem _ hx)
    have ha2 : ∀ a, .alter a ∈ l → a.table ∈ ns := fun a h => ha a (List.mem_cons_of_mem _ h)
    cases o with
    | createTable t =>
      have e1 : createdNames (.createTable t :: l) = t.name :: createdNames l := rfl
      have e2 : droppedNames (.createTable t :: l) = droppedNames l := rfl
      rw [e1] at hcn hc
      rw [e2] at hdn hd
      obtain ⟨hn1, hn2⟩ := List.nodup_cons.mp hcn
      obtain ⟨ns', h1, h2⟩ := names_structure l (ns ++ [t.name]) hk2 hp2 hn2 hdn (by
        intro n hnl hm
        rcases List.mem_append.mp hm with hm | hm
        · exact hc n (List.mem_cons_of_mem _ hnl) hm
        · rw [List.mem_singleton] at hm; exact hn1 (hm ▸ hnl)) (fun n hn => List.mem_append_left _ (hd n hn)) (fun a h => List.mem_append_left _ (ha2 a h))
      refine ⟨ns', ?_, ?_⟩
      · simp only [namesExecAll, namesExec, if_neg (hc t.name List.mem_cons_self), Option.bind_some]
        exact h1
      · intro n
        rw [h2 n, e1, e2, List.mem_append, List.mem_singleton, List.mem_cons]
        constructor
        · rintro (⟨h | h, h'⟩ | h)
          · exact .inl ⟨h, h'⟩
          · exact .inr (.inl h)
          · exact .inr (.inr h)
        · rintro (⟨h, h'⟩ | h | h)
          · exact .inl ⟨.inl h, h'⟩
          · refine .inl ⟨.inr h, fun hm => ?_⟩
            exact hc t.name List.mem_cons_self (h ▸ hd n hm)
          · exact .inr h
    | removeTable m =>
      have hall : ∀ o ∈ Op.removeTable m :: l, o.isDrop = true := by
        intro o ho
        rcases List.mem_cons.mp ho with rfl | ho
        · rfl
        · exact hp1 o ho rfl
      obtain ⟨ns', h1, h2⟩ := names_drops _ ns hall hdn hd
      refine ⟨ns', h1, ?_⟩
      intro n
      rw [h2 n]
      have : createdNames (Op.removeTable m :: l) = [] := by
        unfold createdNames
        rw [List.filterMap_eq_nil_iff]
        intro o ho
        have := hall o ho
        cases o <;> first | rfl | cases this
      rw [this]
      simp
    | alter a =>
      obtain ⟨ns', h1, h2⟩ := names_structure l ns hk2 hp2 hcn hdn hc hd ha2
      refine ⟨ns', ?_, h2⟩
      simp only [namesExecAll, namesExec, if_pos (ha a List.mem_cons_self), Option.bind_some]
      exact h1
    | disableChecks =>
      obtain ⟨ns', h1, h2⟩ := names_structure l ns hk2 hp2 hcn hdn hc hd ha2
      exact ⟨ns', h1, h2⟩
    | enableChecks =>
      obtain ⟨ns', h1, h2⟩ := names_structure l ns hk2 hp2 hcn hdn hc hd ha2
      exact ⟨ns', h1, h2⟩
    | _ =>
      have := hk _ List.mem_cons_self
      rcases this with h | h | h | h <;> cases h

theorem names_rows : ∀ (l : List Op) (ns : List Str), (∀ o ∈ l, ∃ t ∈ ns, (∃ r, o = .rowInsert t r) ∨ (∃ i, o = .rowDelete t i) ∨ ∃ r, o = .rowUpdate t r) →
    namesExecAll ns l = some ns
  | [], ns, _ => rfl
  | o :: l, ns, h => by
    have : namesExec ns o = some ns := by
      obtain ⟨t, ht, ho⟩ := h o List.mem_cons_self
      rcases ho with ⟨r, rfl⟩ | ⟨r, rfl⟩ | ⟨r, rfl⟩ <;> simp only [namesExec, if_pos ht]
    simp only [namesExecAll, this, Option.bind_some]
    exact names_rows l ns (fun x hx => h x (List.mem_cons_of_mem _ hx))

/-- reading rows leaves the tables -/
theorem readTracked_keys {srv : Server} : ∀ (ts : List Table) (live live' : Database), (readTracked srv live ts).result = .ok live' →
    ∀ n, n ∈ live'.tables.keys ↔ n ∈ live.tables.keys
  | [], live, live', h, n => by cases h; exact Iff.rfl
  | t :: ts, live, live', h, n => by
    unfold readTracked at h
    split at h
    · rename_i hc
      obtain ⟨d1, h1, h⟩ := Run.bind_result h
      obtain ⟨x, rs, x', hx, _, _, hd1⟩ := readRows_result h1
      rw [readTracked_keys ts d1 live' h n, hd1, Dict.mem_keys_set]
      constructor
      · rintro (rfl | h)
        · exact Dict.mem_keys_of_get? hx
        · exact h
      · exact .inr
    · exact readTracked_keys ts live live' h n

/-! ## C64 -/

/-- **C64.**  The declared schema has no errors and a plan is made.  A table is created exactly if it is declared and missing,
and dropped exactly if it is there and not declared; every statement finds the table it needs, no table is created twice or
where one exists, and when all statements are executed there are exactly the declared tables. -/
theorem C64 [PyNum] (srv : Server) (sources : List Str) (force : Bool) (ops : List Op) (files live : Database)
    (hclean : ¬ Faulty sources) (hf : FileDatabase.new sources = .ok files) (hl : (LiveDatabase.new srv).result = .ok live)
    (h : (buildCommands srv sources force).result = .ok ops) :
    (∀ t, .createTable t ∈ ops ↔ ∃ n, files.tables.get? n = some t ∧ n ∉ live.tables.keys) ∧
    (∀ n, .removeTable n ∈ ops ↔ n ∈ live.tables.keys ∧ n ∉ files.tables.keys) ∧
    ∃ names, namesExecAll live.tables.keys ops = some names ∧ ∀ n, n ∈ names ↔ n ∈ files.tables.keys := by
  obtain ⟨files2, live2, live', rows, process, hf2, hl2, hr, hkf, hkl, hp, hrows, hops⟩ := buildCommands_tables hclean h
  rw [hf] at hf2
  cases hf2
  rw [hl] at hl2
  cases hl2
  have hkeys := readTracked_keys _ _ _ hr
  obtain ⟨hc1, hc2, hc3, hc4, hc5, hc6⟩ := C10 files.tables (some live'.tables) false process hkf.toKeyedTables hkl.toKeyedTables hp
  simp only [Option.getD_some] at hc1 hc2 hc3 hc4 hc5
  obtain ⟨hrow, _⟩ := C19 files.tables (some live'.tables) rows hkf.toKeyedTables hrows
  have hmem : ∀ o : Op, o.isToggle = false → (o.isCreate = true ∨ o.isDrop = true) → (o ∈ ops ↔ o ∈ process) := by
    intro o ht hcd
    have hnr : o ∉ rows := by
      intro hm
      obtain ⟨t, _, _, ho⟩ := hrow o hm
      rcases ho with ⟨r, rfl⟩ | ⟨r, rfl⟩ | ⟨r, rfl⟩ <;> rcases hcd with h | h <;> cases h
    rw [hops]
    split
    · rename_i hnil
      rw [(List.append_eq_nil_iff.mp hnil).1]
    · simp only [List.cons_append, List.mem_cons, List.mem_append, List.not_mem_nil, or_false]
      constructor
      · rintro (rfl | (hm | hm) | rfl)
        · cases ht
        · exact hm
        · exact absurd hm hnr
        · cases ht
      · exact fun hm => .inr (.inl (.inl hm))
  refine ⟨?_, ?_, ?_⟩
  · intro t
    rw [hmem (.createTable t) rfl (.inl rfl), hc1 t]
    constructor <;> rintro ⟨n, h1, h2⟩ <;> refine ⟨n, h1, fun h => h2 ?_⟩
    · exact (hkeys n).mpr h
    · exact (hkeys n).mp h
  · intro n
    rw [hmem (.removeTable n) rfl (.inr rfl), hc2 n, hkeys n]
  · have hname : ∀ n t, files.tables.get? n = some t → t.name = n := fun n t h => hkf.name n t (Dict.mem_of_get? h)
    have hcr : ∀ n, n ∈ createdNames process ↔ n ∈ files.tables.keys ∧ n ∉ live.tables.keys := by
      intro n
      constructor
      · intro hn
        obtain ⟨o, ho, he⟩ := List.mem_filterMap.mp hn
        cases o with
        | createTable t =>
          cases he
          obtain ⟨m, h1, h2⟩ := (hc1 t).mp ho
          rw [hname m t h1]
          exact ⟨Dict.mem_keys_of_get? h1, fun h => h2 ((hkeys m).mpr h)⟩
        | _ => cases he
      · rintro ⟨h1, h2⟩
        obtain ⟨t, ht⟩ := Dict.exists_get? h1
        refine List.mem_filterMap.mpr ⟨.createTable t, (hc1 t).mpr ⟨n, ht, fun h => h2 ((hkeys n).mp h)⟩, ?_⟩
        simp only [hname n t ht]
    have hdr : ∀ n, n ∈ droppedNames process ↔ n ∈ live.tables.keys ∧ n ∉ files.tables.keys := by
      intro n
      constructor
      · intro hn
        obtain ⟨o, ho, he⟩ := List.mem_filterMap.mp hn
        cases o with
        | removeTable m =>
          cases he
          have := (hc2 n).mp ho
          exact ⟨(hkeys n).mp this.1, this.2⟩
        | _ => cases he
      · rintro ⟨h1, h2⟩
        exact List.mem_filterMap.mpr ⟨.removeTable n, (hc2 n).mpr ⟨(hkeys n).mpr h1, h2⟩, rfl⟩
    have hnc : (createdNames process).Nodup := by
      have key : ∀ l : List Op, (∀ t, .createTable t ∈ l → .createTable t ∈ process) → (l.filter Op.isCreate).Nodup → (createdNames l).Nodup := by
        intro l
        induction l with
        | nil => intro _ _; exact List.nodup_nil
        | cons o l ih =>
          intro hsub hn
          have hsub2 : ∀ t, .createTable t ∈ l → .createTable t ∈ process := fun t h => hsub t (List.mem_cons_of_mem _ h)
          cases o with
          | createTable t =>
            rw [List.filter_cons_of_pos rfl] at hn
            obtain ⟨hn1, hn2⟩ := List.nodup_cons.mp hn
            refine List.nodup_cons.mpr ⟨?_, ih hsub2 hn2⟩
            intro hm
            obtain ⟨o, ho, he⟩ := List.mem_filterMap.mp hm
            cases o with
            | createTable t' =>
              simp only [Option.some.injEq] at he
              obtain ⟨a, ha, _⟩ := (hc1 t').mp (hsub2 t' ho)
              obtain ⟨b, hb, _⟩ := (hc1 t).mp (hsub t List.mem_cons_self)
              have e1 := hname a t' ha
              have e2 := hname b t hb
              have : a = b := by rw [← e1, ← e2, he]
              subst this
              rw [ha] at hb
              cases hb
              exact hn1 (List.mem_filter.mpr ⟨ho, rfl⟩)
            | _ => cases he
          | _ => exact ih hsub2 (by rw [List.filter_cons_of_neg (by simp [Op.isCreate])] at hn; exact hn)
      exact key process (fun _ h => h) hc3
    have hnd : (droppedNames process).Nodup := by
      have key : ∀ l : List Op, (l.filter Op.isDrop).Nodup → (droppedNames l).Nodup := by
        intro l
        induction l with
        | nil => intro _; exact List.nodup_nil
        | cons o l ih =>
          intro hn
          cases o with
          | removeTable n =>
            rw [List.filter_cons_of_pos rfl] at hn
            obtain ⟨hn1, hn2⟩ := List.nodup_cons.mp hn
            refine List.nodup_cons.mpr ⟨?_, ih hn2⟩
            intro hm
            obtain ⟨o, ho, he⟩ := List.mem_filterMap.mp hm
            cases o with
            | removeTable m =>
              simp only [Option.some.injEq] at he
              subst he
              exact hn1 (List.mem_filter.mpr ⟨ho, rfl⟩)
            | _ => cases he
          | _ => exact ih (by rw [List.filter_cons_of_neg (by simp [Op.isDrop])] at hn; exact hn)
      exact key process hc4
    obtain ⟨mid, hmid, hm1, hm2, _⟩ := C11 files.tables (some live'.tables) false process hkf.toKeyedTables hkl.toKeyedTables hp
    simp only [Bool.false_eq_true, if_false, List.nil_append, List.append_nil] at hmid
    subst hmid
    obtain ⟨ns, h1, h2⟩ := names_structure process live.tables.keys hc6 (hm2.imp (fun h => h.2.1)) hnc hnd
      (fun n hn => ((hcr n).mp hn).2) (fun n hn => ((hdr n).mp hn).1) (fun a ha => (hkeys _).mp (hc5 a ha).1)
    have h3 : ∀ n, n ∈ ns ↔ n ∈ files.tables.keys := by
      intro n
      rw [h2 n, hcr n, hdr n]
      by_cases h4 : n ∈ live.tables.keys <;> by_cases h5 : n ∈ files.tables.keys <;> simp [h4, h5]
    have h4 : namesExecAll ns rows = some ns := by
      refine names_rows rows ns ?_
      intro o ho
      obtain ⟨t, htm, _, hcase⟩ := hrow o ho
      obtain ⟨k, hk⟩ := Dict.mem_values.mp htm
      refine ⟨t.name, (h3 _).mpr ?_, hcase⟩
      rw [hkf.name k t hk]
      exact Dict.mem_keys_of_get? (Dict.get?_of_mem hkf.nodup hk)
    refine ⟨ns, ?_, h3⟩
    have hall : namesExecAll live.tables.keys (process ++ rows) = some ns := by
      rw [namesExecAll_append, h1, Option.bind_some, h4]
    rw [hops]
    split
    · rename_i hnil
      rw [hnil] at hall
      exact hall
    · rw [List.cons_append]
      show namesExecAll live.tables.keys ((process ++ rows) ++ [.enableChecks]) = _
      rw [namesExecAll_append, hall]
      rfl

section Examples
attribute [local instance] exactNum

/-- for `C64`: `logs` is dropped and `users` is created -/
example : ∃ ops names, (buildCommands (exServer fun _ _ => none) exSources false).result = .ok ops ∧
    namesExecAll [py"logs", py"roles"] ops = some names ∧ ∀ n, n ∈ names ↔ n ∈ [py"roles", py"users"] := by
  have hb : ∃ ops, (buildCommands (exServer fun _ _ => none) exSources false).result = .ok ops := by
    refine ⟨match (buildCommands (exServer fun _ _ => none) exSources false).result with | .ok ops => ops | .error _ => [], ?_⟩
    decide +kernel
  obtain ⟨ops, hops⟩ := hb
  obtain ⟨_, _, names, h1, h2⟩ := C64 _ exSources false ops exFiles exLive exSources_clean exFiles_eq exLive_eq hops
  have e1 : Dict.keys exLive.tables = [py"logs", py"roles"] := by decide +kernel
  have e2 : Dict.keys exFiles.tables = [py"roles", py"users"] := by decide +kernel
  rw [e1] at h1
  rw [e2] at h2
  exact ⟨ops, names, hops, h1, h2⟩

end Examples

end Mygrations
