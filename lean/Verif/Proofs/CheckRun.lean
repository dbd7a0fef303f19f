import Verif.Model.Commands

/-!
# Lemmas about the run of `check`
-/

namespace Mygrations

open Command

theorem problems_of [PyNum] {sources : List Str} {files files' : Database} {errs warns : List Str} (h1 : FileDatabase.new sources = .ok files)
    (h2 : files.errors = (.ok errs, files')) (h3 : files'.warnings = .ok warns) : problems sources = .ok (errs, warns) := by
  unfold problems
  simp only [h1, h2, h3]

theorem of_problems [PyNum] {sources : List Str} {errs warns : List Str} (h : problems sources = .ok (errs, warns)) :
    ∃ files files', FileDatabase.new sources = .ok files ∧ files.errors = (.ok errs, files') ∧ files'.warnings = .ok warns := by
  unfold problems at h
  split at h
  · cases h
  rename_i files hf
  split at h
  · cases h
  rename_i errs' files' he
  split at h
  · cases h
  rename_i warns' hw
  cases h
  exact ⟨files, files', hf, he, hw⟩

theorem check_of [PyNum] {sources : List Str} {errs warns : List Str} (h : problems sources = .ok (errs, warns)) :
    check sources = .pure ⟨headed py"Errors found in *.sql files:" errs, errs.isEmpty⟩ := by
  unfold check
  rw [h]

/-- what is known if `check` comes to its end -/
theorem of_check [PyNum] {sources : List Str} {o : Outcome} (h : (check sources).result = .ok o) :
    ∃ files files' errs warns, FileDatabase.new sources = .ok files ∧ files.errors = (.ok errs, files') ∧ files'.warnings = .ok warns ∧
      o = ⟨headed py"Errors found in *.sql files:" errs, errs.isEmpty⟩ := by
  unfold check at h
  split at h
  · cases h
  · rename_i errs warns hp
    obtain ⟨files, files', h1, h2, h3⟩ := of_problems hp
    simp only [Run.pure, Except.ok.injEq] at h
    exact ⟨files, files', errs, warns, h1, h2, h3, h.symm⟩

theorem mem_headed {heading m : Str} {l : List Str} : m ∈ headed heading l ↔ m ∈ l ∨ (m = heading ∧ l ≠ []) := by
  unfold headed
  split
  · rename_i h; subst h; simp
  · rename_i h
    rw [List.mem_cons]
    constructor
    · rintro (h' | h')
      · exact .inr ⟨h', h⟩
      · exact .inl h'
    · rintro (h' | h')
      · exact .inr h'
      · exact .inl h'.1

end Mygrations
