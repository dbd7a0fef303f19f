import Verif.Spec.MySQL

/-! # Extracting clauses: computation rules -/

namespace Mygrations.MySQL

@[simp] theorem droppedCols_nil : droppedCols [] = [] := rfl
@[simp] theorem droppedCols_append (a b : List Clause) : droppedCols (a ++ b) = droppedCols a ++ droppedCols b := List.filterMap_append
@[simp] theorem droppedCols_addCol (c : Column) (p : Pos) (l : List Clause) : droppedCols (.addCol c p :: l) = droppedCols l := rfl
@[simp] theorem droppedCols_changeCol (o : Str) (c : Column) (l : List Clause) : droppedCols (.changeCol o c :: l) = droppedCols l := rfl
@[simp] theorem droppedCols_dropCol (n : Str) (l : List Clause) : droppedCols (.dropCol n :: l) = n :: droppedCols l := rfl
@[simp] theorem droppedCols_addKey (i : Index) (l : List Clause) : droppedCols (.addKey i :: l) = droppedCols l := rfl
@[simp] theorem droppedCols_dropKey (n : Str) (l : List Clause) : droppedCols (.dropKey n :: l) = droppedCols l := rfl
@[simp] theorem droppedCols_addFk (k : Constraint) (l : List Clause) : droppedCols (.addFk k :: l) = droppedCols l := rfl
@[simp] theorem droppedCols_dropFk (n : Str) (l : List Clause) : droppedCols (.dropFk n :: l) = droppedCols l := rfl

@[simp] theorem changedCols_nil : changedCols [] = [] := rfl
@[simp] theorem changedCols_append (a b : List Clause) : changedCols (a ++ b) = changedCols a ++ changedCols b := List.filterMap_append
@[simp] theorem changedCols_addCol (c : Column) (p : Pos) (l : List Clause) : changedCols (.addCol c p :: l) = changedCols l := rfl
@[simp] theorem changedCols_changeCol (o : Str) (c : Column) (l : List Clause) : changedCols (.changeCol o c :: l) = (o, c) :: changedCols l := rfl
@[simp] theorem changedCols_dropCol (n : Str) (l : List Clause) : changedCols (.dropCol n :: l) = changedCols l := rfl
@[simp] theorem changedCols_addKey (i : Index) (l : List Clause) : changedCols (.addKey i :: l) = changedCols l := rfl
@[simp] theorem changedCols_dropKey (n : Str) (l : List Clause) : changedCols (.dropKey n :: l) = changedCols l := rfl
@[simp] theorem changedCols_addFk (k : Constraint) (l : List Clause) : changedCols (.addFk k :: l) = changedCols l := rfl
@[simp] theorem changedCols_dropFk (n : Str) (l : List Clause) : changedCols (.dropFk n :: l) = changedCols l := rfl

@[simp] theorem addedCols_nil : addedCols [] = [] := rfl
@[simp] theorem addedCols_append (a b : List Clause) : addedCols (a ++ b) = addedCols a ++ addedCols b := List.filterMap_append
@[simp] theorem addedCols_addCol (c : Column) (p : Pos) (l : List Clause) : addedCols (.addCol c p :: l) = (c, p) :: addedCols l := rfl
@[simp] theorem addedCols_changeCol (o : Str) (c : Column) (l : List Clause) : addedCols (.changeCol o c :: l) = addedCols l := rfl
@[simp] theorem addedCols_dropCol (n : Str) (l : List Clause) : addedCols (.dropCol n :: l) = addedCols l := rfl
@[simp] theorem addedCols_addKey (i : Index) (l : List Clause) : addedCols (.addKey i :: l) = addedCols l := rfl
@[simp] theorem addedCols_dropKey (n : Str) (l : List Clause) : addedCols (.dropKey n :: l) = addedCols l := rfl
@[simp] theorem addedCols_addFk (k : Constraint) (l : List Clause) : addedCols (.addFk k :: l) = addedCols l := rfl
@[simp] theorem addedCols_dropFk (n : Str) (l : List Clause) : addedCols (.dropFk n :: l) = addedCols l := rfl

@[simp] theorem droppedKeys_nil : droppedKeys [] = [] := rfl
@[simp] theorem droppedKeys_append (a b : List Clause) : droppedKeys (a ++ b) = droppedKeys a ++ droppedKeys b := List.filterMap_append
@[simp] theorem droppedKeys_addCol (c : Column) (p : Pos) (l : List Clause) : droppedKeys (.addCol c p :: l) = droppedKeys l := rfl
@[simp] theorem droppedKeys_changeCol (o : Str) (c : Column) (l : List Clause) : droppedKeys (.changeCol o c :: l) = droppedKeys l := rfl
@[simp] theorem droppedKeys_dropCol (n : Str) (l : List Clause) : droppedKeys (.dropCol n :: l) = droppedKeys l := rfl
@[simp] theorem droppedKeys_addKey (i : Index) (l : List Clause) : droppedKeys (.addKey i :: l) = droppedKeys l := rfl
@[simp] theorem droppedKeys_dropKey (n : Str) (l : List Clause) : droppedKeys (.dropKey n :: l) = n :: droppedKeys l := rfl
@[simp] theorem droppedKeys_addFk (k : Constraint) (l : List Clause) : droppedKeys (.addFk k :: l) = droppedKeys l := rfl
@[simp] theorem droppedKeys_dropFk (n : Str) (l : List Clause) : droppedKeys (.dropFk n :: l) = droppedKeys l := rfl

@[simp] theorem addedKeys_nil : addedKeys [] = [] := rfl
@[simp] theorem addedKeys_append (a b : List Clause) : addedKeys (a ++ b) = addedKeys a ++ addedKeys b := List.filterMap_append
@[simp] theorem addedKeys_addCol (c : Column) (p : Pos) (l : List Clause) : addedKeys (.addCol c p :: l) = addedKeys l := rfl
@[simp] theorem addedKeys_changeCol (o : Str) (c : Column) (l : List Clause) : addedKeys (.changeCol o c :: l) = addedKeys l := rfl
@[simp] theorem addedKeys_dropCol (n : Str) (l : List Clause) : addedKeys (.dropCol n :: l) = addedKeys l := rfl
@[simp] theorem addedKeys_addKey (i : Index) (l : List Clause) : addedKeys (.addKey i :: l) = i :: addedKeys l := rfl
@[simp] theorem addedKeys_dropKey (n : Str) (l : List Clause) : addedKeys (.dropKey n :: l) = addedKeys l := rfl
@[simp] theorem addedKeys_addFk (k : Constraint) (l : List Clause) : addedKeys (.addFk k :: l) = addedKeys l := rfl
@[simp] theorem addedKeys_dropFk (n : Str) (l : List Clause) : addedKeys (.dropFk n :: l) = addedKeys l := rfl

@[simp] theorem droppedFks_nil : droppedFks [] = [] := rfl
@[simp] theorem droppedFks_append (a b : List Clause) : droppedFks (a ++ b) = droppedFks a ++ droppedFks b := List.filterMap_append
@[simp] theorem droppedFks_addCol (c : Column) (p : Pos) (l : List Clause) : droppedFks (.addCol c p :: l) = droppedFks l := rfl
@[simp] theorem droppedFks_changeCol (o : Str) (c : Column) (l : List Clause) : droppedFks (.changeCol o c :: l) = droppedFks l := rfl
@[simp] theorem droppedFks_dropCol (n : Str) (l : List Clause) : droppedFks (.dropCol n :: l) = droppedFks l := rfl
@[simp] theorem droppedFks_addKey (i : Index) (l : List Clause) : droppedFks (.addKey i :: l) = droppedFks l := rfl
@[simp] theorem droppedFks_dropKey (n : Str) (l : List Clause) : droppedFks (.dropKey n :: l) = droppedFks l := rfl
@[simp] theorem droppedFks_addFk (k : Constraint) (l : List Clause) : droppedFks (.addFk k :: l) = droppedFks l := rfl
@[simp] theorem droppedFks_dropFk (n : Str) (l : List Clause) : droppedFks (.dropFk n :: l) = n :: droppedFks l := rfl

@[simp] theorem addedFks_nil : addedFks [] = [] := rfl
@[simp] theorem addedFks_append (a b : List Clause) : addedFks (a ++ b) = addedFks a ++ addedFks b := List.filterMap_append
@[simp] theorem addedFks_addCol (c : Column) (p : Pos) (l : List Clause) : addedFks (.addCol c p :: l) = addedFks l := rfl
@[simp] theorem addedFks_changeCol (o : Str) (c : Column) (l : List Clause) : addedFks (.changeCol o c :: l) = addedFks l := rfl
@[simp] theorem addedFks_dropCol (n : Str) (l : List Clause) : addedFks (.dropCol n :: l) = addedFks l := rfl
@[simp] theorem addedFks_addKey (i : Index) (l : List Clause) : addedFks (.addKey i :: l) = addedFks l := rfl
@[simp] theorem addedFks_dropKey (n : Str) (l : List Clause) : addedFks (.dropKey n :: l) = addedFks l := rfl
@[simp] theorem addedFks_addFk (k : Constraint) (l : List Clause) : addedFks (.addFk k :: l) = k :: addedFks l := rfl
@[simp] theorem addedFks_dropFk (n : Str) (l : List Clause) : addedFks (.dropFk n :: l) = addedFks l := rfl

end Mygrations.MySQL
