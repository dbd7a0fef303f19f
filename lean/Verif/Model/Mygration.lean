import Verif.Model.Diff

/-!
# Model of `Mygration` and `RowMygration`
(`mygrations/formats/mysql/mygrations/{mygration,row_mygration}.py`)
-/

namespace Mygrations

namespace Mygration

/-- `_column_type_differs` (mygration.py:341-361) -/
def columnTypeDiffers (s t : Column) : Bool :=
  s.columnType ≠ t.columnType || s.len ≠ t.len || s.isUnsigned ≠ t.isUnsigned ||
  s.characterSet ≠ t.characterSet || s.collate ≠ t.collate

/-- the columns of one table whose type changes (mygration.py:205-211) -/
def changingColumnsOf (name : Str) (s t : Table) : List (Str × Str) :=
  (s.columns.filter (fun e =>
    match t.columns.get? e.1 with
    | some d => columnTypeDiffers e.2 d
    | none => false)).map (fun e => (name, e.1))

/-- `changing_columns` (mygration.py:200-211) -/
def changingColumns (fromT toT : Dict Table) (update : List Str) : List (Str × Str) :=
  update.flatMap (fun n =>
    match fromT.get? n, toT.get? n with
    | some s, some t => changingColumnsOf n s t
    | _, _ => [])

/-- `_find_matching_constraint` (mygration.py:324-339) -/
def findMatchingConstraint (t : Table) (k : Constraint) : Option Constraint :=
  t.constraints.values.find? (fun k' => k'.column = k.column ∧ k'.ftable = k.ftable ∧ k'.fcolumn = k.fcolumn)

/-- An entry of `fks_to_cycle` (mygration.py:216-252): key `(table, name)`, the source constraint, and
the target constraint with its name, if it is to be added again. -/
structure Cycle where
  table : Str
  name : Str
  source : Constraint
  target : Option (Constraint × Str)
  deriving DecidableEq, Repr

/-- the decision for one constraint which involves a changing column (mygration.py:230-252) -/
def cycleFor (toT : Dict Table) (table name : Str) (k : Constraint) : Option Cycle :=
  match toT.get? table with
  | none => some ⟨table, name, k, none⟩
  | some t =>
    match t.constraints.get? name with
    | some k' => some ⟨table, name, k, some (k', name)⟩
    | none =>
      match findMatchingConstraint t k with
      | some k' => some ⟨table, name, k, some (k', k'.name)⟩
      | none => none

/-- does the constraint involve a changing column (mygration.py:222-225)? -/
def involves (changing : List (Str × Str)) (table : Str) (k : Constraint) : Bool :=
  changing.contains (table, k.column) || changing.contains (k.ftable, k.fcolumn)

/-- `fks_to_cycle` (mygration.py:216-252).  The test `fk_key in fks_to_cycle` is omitted: the keys come
from iterating over dictionaries, so they never repeat. -/
def fksToCycle (fromT toT : Dict Table) (changing : List (Str × Str)) : List Cycle :=
  fromT.flatMap (fun e =>
    e.2.constraints.filterMap (fun c =>
      if involves changing e.1 c.2 then cycleFor toT e.1 c.1 c.2 else none))

/-- `d.setdefault(k, []).append(x)` -/
def appendTo {V : Type} (d : Dict (List V)) (k : Str) (x : V) : Dict (List V) :=
  match Dict.get? d k with
  | some l => Dict.set d k (l ++ [x])
  | none => d ++ [(k, [x])]

/-- the groups of `drop_by_table` / `add_by_table` as alters (mygration.py:282-294) -/
def groupAlters (l : List (Str × AlterOp)) : List Alter :=
  (l.foldl (fun d e => appendTo d e.1 e.2) ([] : Dict (List AlterOp))).map (fun e => ⟨e.1, e.2⟩)

/-- the temporary drops (mygration.py:272) -/
def cycleDrops (cs : List Cycle) : List (Str × AlterOp) :=
  cs.map (fun c => (c.table, .removeConstraint c.source))

/-- the additions after the column changes: each target constraint once (mygration.py:265-277) -/
def cycleAdds : List Cycle → List (Str × Str) → List (Str × AlterOp)
  | [], _ => []
  | c :: cs, done =>
    match c.target with
    | none => cycleAdds cs done
    | some (k, n) =>
      if done.contains (c.table, n) then cycleAdds cs done
      else (c.table, .addConstraint k) :: cycleAdds cs (done ++ [(c.table, n)])

/-- `cycled_fk_names` (mygration.py:278-280) -/
def cycledNames (cs : List Cycle) : List (Str × Str) :=
  cs.flatMap (fun c =>
    (c.table, c.name) ::
    (match c.target with
     | some (_, n) => if n ≠ [] ∧ n ≠ c.name then [(c.table, n)] else []
     | none => []))

/-- `_strip_cycled_fk_ops` (mygration.py:298-322) -/
def stripCycled (cycled : List (Str × Str)) (table : Str) (ops : List AlterOp) : List AlterOp :=
  ops.filter (fun op =>
    match op with
    | .addConstraint k | .removeConstraint k => !cycled.contains (table, k.name)
    | _ => true)

/-- one table of the update loop (mygration.py:153-167): what is appended to `operations` and to
`deferred_fk_ops` -/
def updateTable [PyNum] (cycled : List (Str × Str)) (s t : Table) : Except PyErr (List Alter × List Alter) :=
  match s.toSplit t with
  | .error e => .error e
  | .ok d =>
    .ok (Table.alterIf s.name (stripCycled cycled s.name d.removedFks) ++ Table.alterIf s.name d.kitchenSink,
         Table.alterIf s.name (stripCycled cycled s.name d.fks))

/-- the update loop (mygration.py:152-167) -/
def updateTables [PyNum] (cycled : List (Str × Str)) (fromT toT : Dict Table) :
    List Str → Except PyErr (List Alter × List Alter)
  | [] => .ok ([], [])
  | n :: ns =>
    match fromT.get? n, toT.get? n with
    | some s, some t =>
      match updateTable cycled s t with
      | .error e => .error e
      | .ok (now, later) =>
        match updateTables cycled fromT toT ns with
        | .error e => .error e
        | .ok (now', later') => .ok (now ++ now', later ++ later')
    | _, _ => .error (.keyError n)

/-- the cycles of a migration (mygration.py:143,180-252); none without a source database -/
def cycles (fromT : Option (Dict Table)) (toT : Dict Table) : List Cycle :=
  match fromT with
  | none => []
  | some f => fksToCycle f toT (changingColumns f toT (overlap f toT))

/-- `_process` (mygration.py:115-178); `fromT` is `None` if there is no source database -/
def process [PyNum] (toT : Dict Table) (fromT : Option (Dict Table)) (disableChecks : Bool) :
    Except PyErr (List Op) :=
  let f := fromT.getD []
  let cs := cycles fromT toT
  match updateTables (cycledNames cs) f toT (overlap f toT) with
  | .error e => .error e
  | .ok (now, later) =>
    .ok ((if disableChecks then [.disableChecks] else []) ++
      (added f toT).filterMap (fun n => (toT.get? n).map .createTable) ++
      (groupAlters (cycleDrops cs)).map .alter ++
      now.map .alter ++ later.map .alter ++
      (groupAlters (cycleAdds cs [])).map .alter ++
      (removed f toT).map .removeTable ++
      (if disableChecks then [.enableChecks] else []))

end Mygration

namespace RowMygration

/-- the loop of `_process` (row_mygration.py:91-99) -/
def processLoop (toT : Dict Table) (fromT : Option (Dict Table)) : List Str → Except PyErr (List Op)
  | [] => .ok []
  | n :: ns =>
    match toT.get? n with
    | none => .error (.keyError n)
    | some t =>
      match t.toRows ((fromT.getD []).get? n) with
      | .error e => .error e
      | .ok ops => (processLoop toT fromT ns).map (fun more => ops ++ more)

/-- `RowMygration._process` (row_mygration.py:81-101) -/
def process (toT : Dict Table) (fromT : Option (Dict Table)) : Except PyErr (List Op) :=
  processLoop toT fromT ((toT.values.filter Table.tracking).map Table.name)

end RowMygration

end Mygrations
