import Verif.Proofs.Check
import Verif.Py.Num
import Verif.Spec.MySQL

/-! # Concrete tables, used to show that hypotheses of theorems can be met -/

namespace Mygrations.Examples

/-- `id INT(10) UNSIGNED NOT NULL AUTO_INCREMENT` -/
def idCol : Column :=
  { cls := .numeric, name := py"id", ctype := py"INT", len := .str py"10", null := false, unsigned := some true, autoInc := some true }

/-- `name VARCHAR(n) NOT NULL DEFAULT ''` -/
def textCol (name len : Str) : Column :=
  { cls := .string, name := name, ctype := py"VARCHAR", len := .str len, null := false, hasDefault := true, default := some [] }

/-- `name INT(10) UNSIGNED` -/
def intCol (name : Str) : Column :=
  { cls := .numeric, name := name, ctype := py"INT", len := .str py"10", unsigned := some true }

/-- `PRIMARY KEY (id)` -/
def pk : Index := { columns := [py"id"], itype := py"PRIMARY" }

/-- a plain key -/
def key (name : Str) (cols : List Str) : Index := { rawName := name, columns := cols, itype := py"INDEX" }

/-- a foreign key to `col` of `table` -/
def fk (name column table col : Str) : Constraint := { name := name, column := column, ftable := table, fcolumn := col }

/-- a table from its parts -/
def mk (name : Str) (cols : List Column) (idx : List Index) (fks : List Constraint) : Table :=
  { name := name
    columns := cols.map (fun c => (c.name, c))
    indexes := idx.map (fun i => (i.name, i))
    constraints := fks.map (fun k => (k.name, k)) }

/-- the live `posts` table -/
def posts : Table := mk py"posts"
  [idCol, textCol py"title" py"64", intCol py"user_id", textCol py"legacy" py"10", intCol py"editor_id"]
  [pk, key py"posts_user_fk" [py"user_id"], key py"legacy_idx" [py"legacy"], key py"by_title" [py"title"], key py"editor_id" [py"editor_id"]]
  [fk py"posts_user_fk" py"user_id" py"users" py"id", fk py"posts_editor_fk" py"editor_id" py"users" py"id"]

/-- the declared `posts` table: `legacy` is gone, `slug` and `body` are new, `title` is wider, the keys and
foreign keys change -/
def posts' : Table := mk py"posts"
  [idCol, textCol py"slug" py"20", textCol py"title" py"128", intCol py"user_id", intCol py"editor_id", textCol py"body" py"255"]
  [pk, key py"user_id" [py"user_id"], key py"by_title" [py"title", py"slug"], key py"editor_id" [py"editor_id"], key py"body" [py"body"]]
  [fk py"posts_user_fk" py"user_id" py"users" py"id",
   { fk py"posts_editor_fk" py"editor_id" py"users" py"id" with onDelete := py"CASCADE" },
   fk py"posts_slug_fk" py"slug" py"slugs" py"slug"]

theorem posts_valid : posts.Valid := Table.valid_of_check (by decide)
theorem posts'_valid : posts'.Valid := Table.valid_of_check (by decide)
theorem posts_plain : posts.Plain := Table.plain_of_check (by decide)
theorem posts'_plain : posts'.Plain := Table.plain_of_check (by decide)
theorem posts_primary : PrimaryKept posts posts' := Table.primaryKept_of_check (by decide)

end Mygrations.Examples
