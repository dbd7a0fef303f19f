import Verif.Model.Reader

/-! # The main loop of the reader, step by step -/

namespace Mygrations

theorem readLoop_nil (n : Nat) (st : ReaderState) : readLoop n st [] = (st, none) := by cases n <;> rfl

theorem readLoop_zero (st : ReaderState) {s : Str} (h : s ≠ []) : readLoop 0 st s = (st, some (.valueError py"Exceeded max parse depth")) := by
  obtain ⟨c, cs, rfl⟩ := List.exists_cons_of_ne_nil h
  rfl

/-- one iteration -/
def readStep (n : Nat) (st : ReaderState) (data : Str) : ReaderState × Option PyErr :=
  if data = [] then (st, some .indexError)
  else if startsComment data then readLoop n st (parseComment data)
  else if lower (data.take 6) = py"create" then
    match parseCreate data with
    | .error e => (st, some e)
    | .ok (t, rest) => readLoop n { st with tables := st.tables.set t.name t } rest
  else if lower (data.take 6) = py"insert" then
    match parseInsert data with
    | .error e => (st, some e)
    | .ok (r, rest) =>
      readLoop n { st with rows := st.rows.set r.table ((st.rows.get? r.table).getD [] ++ [r]) } rest
  else ({ st with globalErrors := st.globalErrors ++ [py"Unrecognized MySQL command: " ++ data] }, none)

theorem readLoop_succ (n : Nat) (st : ReaderState) {s : Str} (h : s ≠ []) : readLoop (n + 1) st s = readStep n st (strip s) := by
  obtain ⟨c, cs, rfl⟩ := List.exists_cons_of_ne_nil h
  rfl

theorem readLoop_blank (n : Nat) (st : ReaderState) {s : Str} (h : s ≠ []) (hs : strip s = []) : readLoop (n + 1) st s = (st, some .indexError) := by
  rw [readLoop_succ n st h, hs]; rfl

theorem readLoop_comment (n : Nat) (st : ReaderState) {s data : Str} (hs : strip s = data) (hd : data ≠ []) (hc : startsComment data = true) :
    readLoop (n + 1) st s = readLoop n st (parseComment data) := by
  have h : s ≠ [] := by rintro rfl; exact hd hs.symm
  rw [readLoop_succ n st h, hs]
  simp only [readStep, hd, if_false, hc, if_true]

theorem readLoop_create (n : Nat) (st : ReaderState) {s data : Str} {t : Table} {rest : Str} (hs : strip s = data) (hd : data ≠ [])
    (hc : startsComment data = false) (h6 : lower (data.take 6) = py"create") (hp : parseCreate data = .ok (t, rest)) :
    readLoop (n + 1) st s = readLoop n { st with tables := st.tables.set t.name t } rest := by
  have h : s ≠ [] := by rintro rfl; exact hd hs.symm
  rw [readLoop_succ n st h, hs]
  simp only [readStep, hd, if_false, hc, Bool.false_eq_true, h6, if_true, hp]

theorem readLoop_insert (n : Nat) (st : ReaderState) {s data : Str} {r : Rows} {rest : Str} (hs : strip s = data) (hd : data ≠ [])
    (hc : startsComment data = false) (h6 : lower (data.take 6) = py"insert") (hp : parseInsert data = .ok (r, rest)) :
    readLoop (n + 1) st s = readLoop n { st with rows := st.rows.set r.table ((st.rows.get? r.table).getD [] ++ [r]) } rest := by
  have h : s ≠ [] := by rintro rfl; exact hd hs.symm
  have hne : py"insert" ≠ py"create" := by decide
  rw [readLoop_succ n st h, hs]
  simp only [readStep, hd, if_false, hc, Bool.false_eq_true, h6, hne, if_true, hp]

theorem readLoop_unknown (n : Nat) (st : ReaderState) {s data : Str} (hs : strip s = data) (hd : data ≠ [])
    (hc : startsComment data = false) (h6 : lower (data.take 6) ≠ py"create") (h6' : lower (data.take 6) ≠ py"insert") :
    readLoop (n + 1) st s = ({ st with globalErrors := st.globalErrors ++ [py"Unrecognized MySQL command: " ++ data] }, none) := by
  have h : s ≠ [] := by rintro rfl; exact hd hs.symm
  rw [readLoop_succ n st h, hs]
  simp only [readStep, hd, if_false, hc, Bool.false_eq_true, h6, h6']

end Mygrations
