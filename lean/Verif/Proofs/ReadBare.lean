import Verif.Proofs.ReadText
import Verif.Spec.Declare

/-! # Foreign keys without a name read back -/

namespace Mygrations

theorem bare_text (k : Constraint) (w : Actions) (e : Str) :
    (Src.bare k w).render ++ e = fkTail1 k.column k.ftable k.fcolumn (w.del k) (w.upd k) e := body_text k w e

theorem bare_flat {k : Constraint} {w : Actions} (h : (Src.bare k w).Plain) : flat true (Src.bare k w).render = true := by
  have := bare_text k w []
  rw [List.append_nil] at this
  rw [this]
  have h : ({ k with name := py"name" } : Constraint).Plain := h.1
  exact fkTail1_flat h.column h.ftable h.fcolumn (isAct_del w h.onDelete) (isAct_upd w h.onUpdate) (e := []) (Or.inl rfl)

theorem tag_R (g : Tag) (s : Str) : g.rule.kind.parse ('R' :: s) = .ok none := by
  cases g <;>
    simp only [Tag.rule, optLit, bareNull, defaultRule, keyword, charsetRule, collateRule, kind_regex, kind_literal] <;>
    first
    | (rw [literal_miss]; simp [startsWithCI_cons]; done)
    | (simp [regexParse, startsWithCI_cons]; done)

theorem tags_R (s : Str) (vals : Dict PVal) : ∀ gs : List Tag, runRules Kind.parse (tagRules gs) vals ('R' :: s) = .ok ⟨true, vals, 'R' :: s⟩
  | [] => by
    have : endingComma.kind.parse ('R' :: s) = .ok none := congrArg Except.ok (comma_miss (by decide))
    show runRules Kind.parse [endingComma] vals _ = _
    simp only [runRules, this]
    rfl
  | g :: gs => by
    have ih := tags_R s vals gs
    show runRules Kind.parse (g.rule :: tagRules gs) vals _ = _
    simp only [runRules, tag_R]
    rw [g.optional]
    exact ih

theorem actText_length (what : Str) (o : Option Str) (e : Str) : e.length ≤ (actText what o e).length := by
  cases o with
  | none => exact Nat.le_refl _
  | some a => simp only [actText, List.length_append, List.length_cons]; omega

/-- the column classes on a foreign key without a name -/
theorem bare_leave {c t d : Str} {del upd : Option Str} {e : Str} (hc : Ident c) (ht : Ident t) (hd : Ident d) (hdel : IsAct del) (hupd : IsAct upd) (he : Closing e) :
    ∀ x ∈ [typeCharacter, typeNumeric, typeDecimal, typeEnum, typePlain, typeText, typeDateTime],
      Leaves (restOf [] e) x (fkTail1 c t d del upd e) := by
  have hf2 := fkTail2_flat hc ht hd hdel hupd he
  have hf := paren_flat hf2
  have hcl : Closing ('(' :: fkTail2 c t d del upd e) := Or.inr ⟨⟨_, Or.inr (Or.inr (Or.inl rfl))⟩, flat_false_of_true hf⟩
  have htext : fkTail1 c t d del upd e = py"FOREIGN" ++ ' ' :: (py"KEY" ++ ' ' :: '(' :: fkTail2 c t d del upd e) := rfl
  have hle : (restOf [] e).length ≤ e.length := restOf_nil_le e
  have hlen3 : e.length ≤ (fkTail3 t d del upd e).length := by
    have h1 := actText_length py"UPDATE" upd e
    have h2 := actText_length py"DELETE" del (actText py"UPDATE" upd e)
    simp only [fkTail3, fkTail4, List.length_append, List.length_cons]; omega
  have hlen2 : (fkTail3 t d del upd e).length ≤ (fkTail2 c t d del upd e).length := by
    simp only [fkTail2, List.length_append, List.length_cons]; omega
  have h1 : (lit py"(").kind.parse ('(' :: fkTail2 c t d del upd e) = .ok (some (.str py"(", fkTail2 c t d del upd e)) := lit_hit py"(" hf2
  have hdig : ∀ n, (digitsRule n).kind.parse (fkTail2 c t d del upd e) = .ok none := by
    intro n
    have : fkTail2 c t d del upd e = '`' :: (c ++ ['`'] ++ (py") REFERENCES" ++ ' ' :: fkTail3 t d del upd e)) := by simp [fkTail2, quoted]
    rw [this]
    show Except.ok (regexParse _ _) = _
    simp [regexParse, startsWithCI_nil, takeRun, show isDigit '`' = false from by decide]
  have digits : ∀ (x : ChildClass Definition) (n : Str) (rs : List (Rule Kind)), x.rules = columnHead ++ lit py"(" :: digitsRule n :: rs → (∀ r ∈ rs, r.kind.Idle) →
      Leaves (restOf [] e) x (fkTail1 c t d del upd e) := by
    intro x n rs hcr hrs
    have idle1 : ∀ r ∈ digitsRule n :: rs, r.kind.Idle := by
      intro r hr
      rcases List.mem_cons.mp hr with rfl | hr
      · rfl
      · exact hrs r hr
    have idle : ∀ r ∈ lit py"(" :: digitsRule n :: rs, r.kind.Idle := by
      intro r hr
      rcases List.mem_cons.mp hr with rfl | hr
      · rfl
      · exact idle1 r hr
    have := try_none (c := x) (s := fkTail1 c t d del upd e) (by rw [hcr, htext, head_key idle (by simp) (by decide) hf, run_step idle1 h1, run_fail (hdig n) rfl])
    exact (leavesMore_none this).le
  have plain : ∀ (x : ChildClass Definition) (gs : List Tag), x.rules = columnHead ++ tagRules gs →
      Leaves (restOf [] e) x (fkTail1 c t d del upd e) := by
    intro x gs hcr
    have := try_of_run (c := x) (s := fkTail1 c t d del upd e) (gs := gs) (ws := []) hcl (by simp)
      (by rw [hcr, htext, head_key (tagRules_idle gs) (by simp) (by decide) hf]; congr 1; exact (strip_flat hf).symm)
    refine ⟨_, this, ?_⟩
    intro m r hr
    cases hr
    simp only [runTags_nil]
    have : restOf [] ('(' :: fkTail2 c t d del upd e) = '(' :: fkTail2 c t d del upd e := strip_flat hf
    rw [this, List.length_cons]
    omega
  intro x hx
  simp only [List.mem_cons, List.not_mem_nil, or_false] at hx
  rcases hx with rfl | rfl | rfl | rfl | rfl | rfl | rfl
  · exact digits _ _ (lit py")" :: tagRules characterTags) rfl (fun r hr => columnTails_idle _ (List.mem_cons_self) r (List.mem_cons_of_mem _ (List.mem_cons_of_mem _ hr)))
  · exact digits _ _ (lit py")" :: tagRules numericTags) rfl
      (fun r hr => columnTails_idle _ (List.mem_cons_of_mem _ List.mem_cons_self) r (List.mem_cons_of_mem _ (List.mem_cons_of_mem _ hr)))
  · exact digits _ _ ({ kind := .literal py",", name := py"separating_comma" } :: digitsRule py"decimals" :: lit py")" :: tagRules decimalTags) rfl
      (fun r hr => columnTails_idle _ (List.mem_cons_of_mem _ (List.mem_cons_of_mem _ List.mem_cons_self)) r
        (List.mem_cons_of_mem _ (List.mem_cons_of_mem _ hr)))
  · have hr3 : flat true (py"REFERENCES" ++ ' ' :: fkTail3 t d del upd e) = true := by
      rw [flat_space (by decide)]; exact fkTail3_flat ht hd hdel hupd he
    obtain ⟨vs, h2⟩ := columns_enum (cols := [c]) (by simp) (by simpa using hc) (' ' :: (py"REFERENCES" ++ ' ' :: fkTail3 t d del upd e))
    have e2 : join py"," ([c].map (quoted '`')) ++ ')' :: (' ' :: (py"REFERENCES" ++ ' ' :: fkTail3 t d del upd e)) = fkTail2 c t d del upd e := by
      simp [join, fkTail2]
    rw [e2] at h2
    have idle := columnTails_idle (lit py"(" :: delimited py"enum_values" '\'' py")" :: lit py")" :: tagRules enumTags) (by simp [columnTails])
    have idle1 := fun r hr => idle r (List.mem_cons_of_mem _ hr)
    have idle2 := fun r hr => idle1 r (List.mem_cons_of_mem _ hr)
    have h3 : (lit py")").kind.parse (')' :: (' ' :: (py"REFERENCES" ++ ' ' :: fkTail3 t d del upd e))) =
        .ok (some (.str py")", py"REFERENCES" ++ ' ' :: fkTail3 t d del upd e)) := by
      show Except.ok (literalParse py")" (py")" ++ ' ' :: (py"REFERENCES" ++ ' ' :: fkTail3 t d del upd e))) = _
      rw [literal_hit, strip_space hr3]
    have hp : simpleParse typeEnum.rules (fkTail1 c t d del upd e) =
        .ok ⟨true, [(py"name", .str py"FOREIGN"), (py"type", .str py"KEY"), (py"(", .str py"("), (py"enum_values", .list vs), (py")", .str py")")],
          py"REFERENCES" ++ ' ' :: fkTail3 t d del upd e⟩ := by
      show simpleParse (columnHead ++ (lit py"(" :: delimited py"enum_values" '\'' py")" :: lit py")" :: tagRules enumTags)) _ = _
      rw [htext, head_key idle (by simp) (by decide) hf, run_step idle1 h1, run_step idle2 h2, run_step (tagRules_idle _) h3]
      exact tags_R _ _ enumTags
    refine ⟨_, try_some hp, ?_⟩
    intro m r hr
    simp only [Option.some.injEq, Prod.mk.injEq] at hr
    obtain ⟨_, rfl⟩ := hr
    simp only [List.length_append, List.length_cons]
    omega
  · exact plain _ plainTags rfl
  · exact plain _ characterTags rfl
  · exact plain _ dateTimeTags rfl

/-- the values after reading a constraint without a name, up to the actions -/
def bareVals (c t d : Str) : Dict PVal :=
  [(py"FOREIGN KEY (", PVal.str py"FOREIGN KEY ("),
    (py"column_name", PVal.str (quoted '`' c)), (py") REFERENCES", PVal.str py") REFERENCES"),
    (py"foreign_table_name", PVal.str (quoted '`' t ++ [' '])), (py"(", PVal.str py"("),
    (py"foreign_column_name", PVal.str (quoted '`' d)), (py")", PVal.str py")")]

theorem bare_actions {c t d : Str} {del upd : Option Str} (hdel : IsAct del) (hupd : IsAct upd) :
    foundActions (setAct py"UPDATE" upd (setAct py"DELETE" del (bareVals c t d))) py"DELETE" = del.toList ∧
    foundActions (setAct py"UPDATE" upd (setAct py"DELETE" del (bareVals c t d))) py"UPDATE" = upd.toList := by
  have hdel := isAct_cases hdel
  have hupd := isAct_cases hupd
  simp only [fkActions, List.map_cons, List.map_nil, List.mem_cons, List.not_mem_nil, or_false] at hdel hupd
  rcases hdel with rfl | rfl | rfl | rfl | rfl | rfl <;> rcases hupd with rfl | rfl | rfl | rfl | rfl | rfl <;> exact ⟨rfl, rfl⟩

/-- a foreign key without a name is read back, whatever closes it -/
theorem bare_read {k : Constraint} {w : Actions} (h : (Src.bare k w).Plain) {e : Str} (he : Closing e) :
    bestChild definitionClasses ((Src.bare k w).render ++ e) none =
      .ok (some (.constraint { k with name := k.column ++ py"_" ++ k.ftable ++ py"_fk", parsingErrors := [] } true, restOf [] e)) := by
  obtain ⟨⟨hf1, hf2⟩, hf3, hf4⟩ := fits_actions h.2
  have h : ({ k with name := py"name" } : Constraint).Plain := h.1
  have hdel : IsAct (w.del k) := isAct_del w h.onDelete
  have hupd : IsAct (w.upd k) := isAct_upd w h.onUpdate
  have hall := fkTail1_flat (c := k.column) (t := k.ftable) (d := k.fcolumn) h.column h.ftable h.fcolumn hdel hupd he
  rw [bare_text]
  apply best_of [indexPrimary, indexKey, indexUnique, constraintForeign] [typeCharacter, typeNumeric, typeDecimal, typeEnum, typePlain,
    typeText, typeDateTime] constraintForeignBare rfl
  · intro c hcm
    simp only [List.mem_cons, List.not_mem_nil, or_false] at hcm
    rcases hcm with rfl | rfl | rfl | rfl
    · exact leavesMore_none (try_miss rfl hall (by decide))
    · exact leavesMore_none (try_miss_key hall (by decide) (by decide))
    · exact leavesMore_none (try_miss rfl hall (by decide))
    · exact leavesMore_none (try_miss rfl hall (by decide))
  · have hrun : simpleParse constraintForeignBare.rules (fkTail1 k.column k.ftable k.fcolumn (w.del k) (w.upd k) e) =
        .ok (closeComma (setAct py"UPDATE" (w.upd k) (setAct py"DELETE" (w.del k) (bareVals k.column k.ftable k.fcolumn))) [] e) := by
      unfold simpleParse
      rw [normalize_normal (Or.inr hall)]
      show runRules Kind.parse foreignRules [] _ = _
      rw [foreign_run h.column h.ftable h.fcolumn hdel hupd he]
      rfl
    unfold ChildClass.tryParse
    rw [hrun]
    simp only [closeComma_matched, if_true, closeComma_rest, constraintForeignBare, foreignConstraint, findAction, actionErrors, closeComma_actions,
      (bare_actions hdel hupd).1, (bare_actions hdel hupd).2, hf1, hf2, hf3, hf4, List.map_nil, List.append_nil]
    rw [closeComma_text _ _ (by decide), closeComma_text _ _ (by decide), closeComma_text _ _ (by decide),
      acts_text hdel hupd (by decide), acts_text hdel hupd (by decide), acts_text hdel hupd (by decide)]
    have t2 : textOf (bareVals k.column k.ftable k.fcolumn) py"column_name" = quoted '`' k.column ++ [] := by
      rw [List.append_nil]; rfl
    have t3 : textOf (bareVals k.column k.ftable k.fcolumn) py"foreign_table_name" = quoted '`' k.ftable ++ [' '] := rfl
    have t4 : textOf (bareVals k.column k.ftable k.fcolumn) py"foreign_column_name" = quoted '`' k.fcolumn ++ [] := by
      rw [List.append_nil]; rfl
    rw [t2, t3, t4, stripTicks_strip h.column _ (Or.inl rfl), stripTicks_strip h.ftable _ (Or.inr rfl),
      stripTicks_strip h.fcolumn _ (Or.inl rfl)]
  · exact bare_leave h.column h.ftable h.fcolumn hdel hupd he

end Mygrations
