import Verif.Model.Table

/-!
# The methods which edit a table in memory

The methods themselves are modelled in `Model/Table.lean`; here they are put together so that one can speak of histories of calls.
-/

namespace Mygrations

/-- A call of one of the nine methods (core/definitions/table.py:429-562).  The methods which remove something accept a name or the
thing itself, of which they use the name. -/
inductive Edit
  | addColumn (c : Column) (p : Pos)
  | removeColumn (name : Str)
  | changeColumn (c : Column)
  | addIndex (i : Index)
  | removeIndex (name : Str)
  | changeIndex (i : Index)
  | addConstraint (k : Constraint)
  | removeConstraint (name : Str)
  | changeConstraint (k : Constraint)
  deriving DecidableEq, Repr

namespace Table

/-- the call (core/definitions/table.py:429-562) -/
def edit (t : Table) : Edit → Except PyErr Table
  | .addColumn c p => t.addColumn c p
  | .removeColumn n => t.removeColumn n
  | .changeColumn c => t.changeColumn c
  | .addIndex i => t.addIndex i
  | .removeIndex n => t.removeIndex n
  | .changeIndex i => t.changeIndex i
  | .addConstraint k => t.addConstraint k
  | .removeConstraint n => t.removeConstraint n
  | .changeConstraint k => t.changeConstraint k

/-- several calls, one after the other; the first exception ends them -/
def edits : Table → List Edit → Except PyErr Table
  | t, [] => .ok t
  | t, e :: es =>
    match t.edit e with
    | .ok t' => edits t' es
    | .error x => .error x

end Table

end Mygrations
