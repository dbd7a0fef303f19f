import Verif.Spec.Live

/-!
# Specification: columns which MySQL updates

MySQL writes `ON UPDATE CURRENT_TIMESTAMP` at the end of the definition of a column which it sets whenever the row is updated.
-/

namespace Mygrations

/-- What MySQL writes after the definition of a column: nothing, or that it is updated. -/
def updateText : Bool → Str
  | false => []
  | true => py" ON UPDATE CURRENT_TIMESTAMP"

/-- The text of the statement when definitions may be updated: there is one entry in `marks` for each of them. -/
def TableDecl.updatedText (d : TableDecl) (l : Layout) (marks : List Bool) : Str :=
  py"CREATE TABLE `" ++ d.name ++ py"` (" ++ l.lead ++ join (py"," ++ l.sep) (List.zipWith (fun x n => x.render ++ updateText n) d.defs marks) ++
  l.trail ++ py")" ++ d.options.flatMap (fun o => py" " ++ o.name ++ py"=" ++ o.value)

/-- The server has the tables, and `marks n` says which definitions of the table `n` are updated.  There is white space after the
commas, and what follows a definition which is updated, if anything does, is a column
or the primary key. -/
structure Server.HasUpdated (srv : Server) (ds : List TableDecl) (marks : Str → List Bool) : Prop where
  names : srv.tableNames = ds.map (·.name)
  distinct : (ds.map (·.name)).Nodup
  ok : ∀ d ∈ ds, d.Ok
  few : ∀ d ∈ ds, d.defs.length < 998
  each : ∀ d ∈ ds, (marks d.name).length = d.defs.length
  next : ∀ d ∈ ds, ∀ i, (marks d.name)[i]? = some true → ∀ x, d.defs[i + 1]? = some x →
    (∃ c s, x = .column c s) ∨ ∃ j w, x = .index j w ∧ j.indexType = py"PRIMARY"
  answers : ∀ d ∈ ds, ∃ l : Layout, l.Ok ∧ l.sep ≠ [] ∧ srv.createText d.name = .ok (some (d.updatedText l (marks d.name)))

end Mygrations
