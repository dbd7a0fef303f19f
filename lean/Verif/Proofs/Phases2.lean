import Verif.Proofs.Phases

/-! # The later phases of a migration -/

namespace Mygrations
open Table MySQL Mygration

section
variable [PyNum] {c : Bool} {f t : Dict Table} {N : Str → Dict Column} {w : Where}

/-- the statements which change columns and keys, and what they do -/
def Kit (f t : Dict Table) (N : Str → Dict Column) : Prop := ∀ n a b, f.get? n = some a → t.get? n = some b →
  a.toSplit b = .ok (diffOf f t n) ∧ ((diffOf f t n).kitchenSink = [] → N n = a.columns ∧ finalKeys a b = (ofTable a).keys) ∧
  ∀ F : Dict Constraint, (∀ e ∈ F, e.2.column ∈ b.columns.keys) →
    alterTable ⟨a.columns, (ofTable a).keys, F⟩ ((diffOf f t n).kitchenSink.flatMap clauses) = some ⟨N n, finalKeys a b, F⟩

theorem before_prefix {l S post : List Str} (hn : l.Nodup) (he : l = S ++ post) {x y : Str} (hb : Before l x y) (hy : y ∈ S) : x ∈ S := by
  obtain ⟨l1, l2, l3, hl⟩ := hb
  rw [he] at hl hn
  rcases List.append_eq_append_iff.mp hl with ⟨a', h1, h2⟩ | ⟨c', h1, h2⟩
  · exfalso
    rw [List.nodup_append] at hn
    exact hn.2.2 y hy y (by rw [h2]; simp) rfl
  · rw [h1]; simp

theorem ordered_mid {g : Str → Nat} {dr : Str → Bool} {S post : List Str} (hn : (overlap f t).Nodup) (he : overlap f t = S ++ post)
    (h1 : ∀ m, 1 ≤ g m ∧ g m ≤ 3) (h2 : ∀ m, 3 ≤ g m ↔ m ∈ S) : Where.Ordered f t ⟨g, fun _ => true, dr⟩ := by
  constructor
  · exact fun _ _ _ _ n => ⟨(h1 n).1, rfl⟩
  · intro n p hb hp
    exact (h2 n).mpr (before_prefix hn he hb ((h2 p).mp hp))
  · intro p hp
    have := (h1 p).2
    simp only at hp
    omega

theorem ordered_high {g : Str → Nat} {dr : Str → Bool} (h : ∀ m, 3 ≤ g m) : Where.Ordered f t ⟨g, fun _ => true, dr⟩ := by
  constructor
  · exact fun _ _ _ _ n => ⟨by have := h n; simp only; omega, rfl⟩
  · exact fun n _ _ _ => h n
  · exact fun _ _ _ _ n _ _ => h n

omit [PyNum] in
theorem drops_alter {c' : Bool} (hf : Accepted c f) (ht : Accepted c' t) {n : Str} {a b : Table} (ha : f.get? n = some a) (hb : t.get? n = some b) :
    let ops := (ownDrops (cycledNames (cycles (some f) t)) a b n).map AlterOp.removeConstraint
    FkOnly (ops.flatMap clauses) ∧
    alterTable ⟨a.columns, (ofTable a).keys, fks1 (cycles (some f) t) n a⟩ (ops.flatMap clauses) =
      some ⟨a.columns, (ofTable a).keys, fks2 (cycles (some f) t) n a b⟩ := by
  intro ops
  obtain ⟨va, _⟩ := hf.valid n a ha
  have ka := va.toKeyed
  have hcl := removeConstraint_clauses (ownDrops (cycledNames (cycles (some f) t)) a b n)
  refine ⟨hcl.1, fkAlter_exec hcl.1 va.hasCols (validKeys va) (F₀ := fks2 (cycles (some f) t) n a b) ?_ ?_ ?_⟩
  · rw [hcl.2.1, dropNames_spec]
    · rfl
    · intro x hx
      rw [ownDrops_names ka, List.mem_filter] at hx
      obtain ⟨h1, h2⟩ := hx
      obtain ⟨k, hk⟩ := Dict.exists_get? (goneFks_sub x h1)
      have : (x, k) ∈ fks1 (cycles (some f) t) n a := by
        refine List.mem_filter.mpr ⟨Dict.mem_of_get? hk, ?_⟩
        simp only [Bool.not_eq_true']
        cases hc : cycSrc (cycles (some f) t) n x with
        | false => rfl
        | true =>
          simp only [cycSrc, List.any_eq_true, Bool.and_eq_true, decide_eq_true_eq] at hc
          obtain ⟨y, hy, e1, e2⟩ := hc
          have := mem_cycledNames_source hy
          rw [e1, e2] at this
          simp [this] at h2
      exact List.mem_map_of_mem this
    · rw [ownDrops_names ka]
      exact (goneFks_nodup ka).filter _
  · rw [hcl.2.2]; rfl
  · intro e he
    have : e ∈ a.constraints := (List.mem_filter.mp (List.mem_filter.mp he).1).1
    exact va.fkCols e.2 (Dict.mem_values.mpr ⟨_, this⟩)

theorem fks4_cols (h : Setup c f t N) {n : Str} {a b : Table} (ha : f.get? n = some a) (hb : t.get? n = some b) :
    ∀ e ∈ fks4 (cycles (some f) t) n a b, e.2.column ∈ b.columns.keys := by
  rintro ⟨x, k⟩ he
  obtain ⟨k', h1, h2⟩ := mem_fks4 h.src h.tgt h.ok ha hb he
  rw [h2.2.1]
  exact (h.tgt.valid n b hb).1.fkCols k' (get?_value h1)

theorem fks2_cols (h : Setup c f t N) {n : Str} {a b : Table} (ha : f.get? n = some a) (hb : t.get? n = some b) :
    ∀ e ∈ fks2 (cycles (some f) t) n a b, e.2.column ∈ b.columns.keys :=
  fun e he => fks4_cols h ha hb e (by simp only [fks4, fks3, List.mem_append]; exact .inl (.inl he))

/-- nothing uses the columns whose types are changed -/
theorem noBreak_kitchen (h : Setup c f t N) {n : Str} {a b : Table} (ha : f.get? n = some a) (hb : t.get? n = some b)
    (hd : a.toSplit b = .ok (diffOf f t n)) (hg : w.g n = 2) (hall : ∀ m, 1 ≤ w.g m ∧ w.g m ≤ 3)
    (hbef : ∀ m, Before (overlap f t) m n → 3 ≤ w.g m) :
    NoBreak (tabsAt f t N w) n (stageTab (cycles (some f) t) (N n) n a b 2) ((diffOf f t n).kitchenSink.flatMap clauses) := by
  intro e he ca hca hty m sm hm x k hk
  obtain ⟨hcb, ca', hca', heq⟩ := kitchen_changed (h.src.keyedTable ha) (h.tgt.keyedTable hb) hd e he
  have hca0 : a.columns.get? e.1 = some ca := hca
  rw [hca0] at hca'
  cases hca'
  have hdiff : ca.TypeDiffers e.2 := by simpa [typeDiffers, Column.TypeDiffers, or_assoc] using hty
  have hch : TypeChanges f t n e.1 := ⟨a, b, ca, e.2, ha, hb, hca, hcb, hdiff⟩
  have hre : Retyped f t n e.1 := ⟨a, b, ca, e.2, ha, hb, hca, hcb, hdiff, fun h => heq (.inl h), fun h => heq (.inr h)⟩
  cases hu : uses m k n e.1 with
  | false => rfl
  | true =>
    exfalso
    have hu : Uses m k n e.1 := by simpa [uses, Uses] using hu
    have htouch : Touched f t m k := ⟨n, e.1, hch, hu⟩
    rcases tab_fk h hm hk with ⟨⟨⟨a', ha', hka⟩, hnt, hstage, hstay⟩, _⟩ | ⟨⟨⟨b', k', hb', hkb, hsame⟩, hsrc⟩, _⟩
    · have hnt := hnt (hall m).1
      cases hb' : t.get? m with
      | none => exact hnt ⟨htouch, .inl hb'⟩
      | some b' =>
        have hns : ¬ Stays t m k := by
          rintro ⟨b2, k2, hb2, hk2, hs2⟩
          exact hnt ⟨htouch, .inr ⟨b2, hb2, k2, get?_value hk2, .inl hs2.1.symm⟩⟩
        have h3 := hstage (by simp [hb'])
        have h2 : w.g m ≠ 2 := fun e => hns (hstay (by simp [hb']) e)
        have hne : m ≠ n := by rintro rfl; exact h2 hg
        rcases hu with ⟨e1, _⟩ | ⟨e1, e2⟩
        · exact hne e1
        · rcases h.ok.leaving m a' k b ha' (get?_value hka) hns (by rw [e1]; exact hne.symm) (by rw [e1, ha]; simp) (by rw [e1]; exact hb) with h4 | h4 | h4
          · rw [e1, e2] at h4
            exact h4.2 hre
          · exact hnt h4
          · rw [e1] at h4
            have := hbef m h4
            omega
    · cases ha' : f.get? m with
      | none =>
        rcases hu with ⟨e1, _⟩ | ⟨e1, e2⟩
        · rw [e1, ha] at ha'
          cases ha'
        · have := h.ok.parents m b' k' a hb' ha' (get?_value hkb) (by rw [← hsame.2.2.1, e1]; exact ha)
          rw [← hsame.2.2.1, ← hsame.2.2.2.1, e1, e2] at this
          exact this.2 hre
      | some a' =>
        rcases hsrc a' ha' with h4 | ⟨_, _, h4⟩
        · have := (hall m).2
          omega
        · exact h4 htouch

theorem get?_overlap {n : Str} : n ∈ overlap f t ↔ f.get? n ≠ none ∧ t.get? n ≠ none := by
  rw [mem_overlap, Dict.mem_keys_iff, Dict.mem_keys_iff]
  simp only [ne_eq, ← Option.ne_none_iff_exists']

/-- the turn of every table -/
theorem phase_now (h : Setup c f t N) (hk : Kit f t N) :
    Runs (During f t N) (tabsAt f t N ⟨fun _ => 1, fun _ => true, fun _ => false⟩)
      (((overlap f t).flatMap (nowOf (cycledNames (cycles (some f) t)) f t)).map .alter)
      (tabsAt f t N ⟨fun _ => 3, fun _ => true, fun _ => false⟩) := by
  have hnd := overlap_nodup (t := t) h.src.nodup
  have := runs_list (P := During f t N) (fun l : List Str => tabsAt f t N ⟨fun n => if n ∈ l then 3 else 1, fun _ => true, fun _ => false⟩)
    (fun n => (nowOf (cycledNames (cycles (some f) t)) f t n).map Op.alter) (overlap f t) [] ⟨_, ordered_low _ _ _ (by simp), rfl⟩ ?_
  · simp only [List.nil_append, List.not_mem_nil, if_false] at this
    rw [List.map_flatMap]
    refine Eq.mp ?_ this
    congr 1
    apply tabsAt_congr
    · intro n h1 h2
      simp [get?_overlap.mpr ⟨h1, h2⟩]
    · intro n _ _
      simp only [true_and]
      split <;> simp
    · simp
  · intro pre n post he
    simp only [List.nil_append]
    have hmem : n ∈ overlap f t := by rw [he]; simp
    obtain ⟨h1, h2⟩ := get?_overlap.mp hmem
    obtain ⟨a, ha⟩ := Option.ne_none_iff_exists'.mp h1
    obtain ⟨b, hb⟩ := Option.ne_none_iff_exists'.mp h2
    obtain ⟨hd, hnil, hkit⟩ := hk n a b ha hb
    have hnp : n ∉ pre := by
      rw [he, List.nodup_append] at hnd
      intro hp
      exact hnd.2.2 n hp n (by simp) rfl
    obtain ⟨hfk, hex⟩ := drops_alter h.src h.tgt ha hb
    rw [nowOf_eq hd, List.map_append]
    have he' : overlap f t = pre ++ (n :: post) := he
    have hmid : (((⟨fun m => if m ∈ pre then 3 else 1, fun _ => true, fun _ => false⟩ : Where).to n 2).Ordered f t) := by
      apply ordered_mid hnd he'
      · intro m
        simp only
        split
        · omega
        · split <;> omega
      · intro m
        simp only
        split
        · rename_i e; subst e; simp [hnp]
        · split <;> simp [*]
    have hpre : (⟨fun m => if m ∈ pre then 3 else 1, fun _ => true, fun _ => false⟩ : Where).Ordered f t := by
      apply ordered_mid hnd he'
      · intro m
        split <;> omega
      · intro m
        split <;> simp [*]
    have hlast : tabsAt f t N ⟨fun m => if m ∈ pre ++ [n] then 3 else 1, fun _ => true, fun _ => false⟩ =
        tabsAt f t N (((⟨fun m => if m ∈ pre then 3 else 1, fun _ => true, fun _ => false⟩ : Where).to n 2).to n 3) := by
      congr 2
      funext m
      by_cases e : m = n
      · simp [e]
      · simp [e, Where.to]
    rw [hlast]
    refine Runs.append (σ' := tabsAt f t N ((⟨fun m => if m ∈ pre then 3 else 1, fun _ => true, fun _ => false⟩ : Where).to n 2)) ?_ ?_
    · refine run_stageIf h ha hb (i := 1) (by simp [hnp]) _ ?_ hex (noBreak_fkOnly hfk) hpre hmid
      intro hz
      simp only [List.map_eq_nil_iff] at hz
      have : fks2 (cycles (some f) t) n a b = fks1 (cycles (some f) t) n a := by
        simp [fks2, hz]
      simp only [stageTab, this]
    · refine run_stageIf h ha hb (i := 2) (by simp [Where.to]) _ ?_ (hkit _ (fks2_cols h ha hb)) ?_ hmid ?_
      · intro hz
        obtain ⟨e1, e2⟩ := hnil hz
        simp only [stageTab, e1, e2]
      · apply noBreak_kitchen h ha hb hd
        · simp [Where.to]
        · intro m
          simp only [Where.to]
          split
          · omega
          · split <;> omega
        · intro m hm
          have hmp : m ∈ pre := by
            have hin := before_prefix hnd (S := pre ++ [n]) (post := post) (by rw [he]; simp) hm (by simp)
            rcases List.mem_append.mp hin with h3 | h3
            · exact h3
            · exfalso
              simp only [List.mem_singleton] at h3
              subst h3
              obtain ⟨l1, l2, l3, hl⟩ := hm
              rw [hl] at hnd
              simp [List.nodup_append] at hnd
          have hmn : m ≠ n := by rintro rfl; exact hnp hmp
          simp [Where.to, hmp, hmn]
      · apply ordered_mid (S := pre ++ [n]) (post := post) hnd (by rw [he]; simp)
        · intro m
          by_cases e : m = n
          · simp [e]
          · by_cases e' : m ∈ pre <;> simp [Where.to, e, e']
        · intro m
          simp only [Where.to]
          by_cases e : m = n
          · simp [e]
          · by_cases e' : m ∈ pre <;> simp [e, e']

theorem new_keys (h : Setup c f t N) {n : Str} {a b : Table} (ha : f.get? n = some a) (hb : t.get? n = some b) :
    N n ≠ [] ∧ ∀ e ∈ finalKeys a b, e.2.columns ≠ [] ∧ ∀ x ∈ e.2.columns, x ∈ (N n).keys := by
  obtain ⟨va, pa⟩ := h.src.valid n a ha
  obtain ⟨vb, pb⟩ := h.tgt.valid n b hb
  have hc := h.cols n a b ha hb
  constructor
  · intro e
    have hv := vb.hasCols
    cases hb' : b.columns with
    | nil => exact hv hb'
    | cons x l =>
      have := (hc.names x.1).mpr (by rw [hb']; simp [Dict.keys])
      rw [e] at this
      simp at this
  · intro e he
    obtain ⟨js, hperm, hpair⟩ := finalKeys_stand va vb pa pb
    have : ∃ j ∈ js, e.2.columns = j.columns := by
      clear hperm
      generalize finalKeys a b = K at he hpair
      induction hpair with
      | nil => cases he
      | cons hr _ ih =>
        rcases List.mem_cons.mp he with rfl | he
        · exact ⟨_, by simp, hr.1.1⟩
        · obtain ⟨j, h1, h2⟩ := ih he
          exact ⟨j, List.mem_cons_of_mem _ h1, h2⟩
    obtain ⟨j, hj, hcol⟩ := this
    have := vb.idxCols j (hperm.mem_iff.mp hj)
    rw [hcol]
    exact ⟨this.1, fun x hx => (hc.names x).mpr (this.2 x hx)⟩

theorem adds_alter (h : Setup c f t N) {n : Str} {a b : Table} (ha : f.get? n = some a) (hb : t.get? n = some b) (l : List Constraint)
    (F : Dict Constraint) (hn : (l.map Constraint.name).Nodup) (hfr : ∀ k ∈ l, k.name ∉ F.keys)
    (hcols : ∀ e ∈ F ++ l.map (fun k => (k.name, k)), e.2.column ∈ b.columns.keys) :
    FkOnly ((l.map AlterOp.addConstraint).flatMap clauses) ∧
    alterTable ⟨N n, finalKeys a b, F⟩ ((l.map AlterOp.addConstraint).flatMap clauses) =
      some ⟨N n, finalKeys a b, F ++ l.map (fun k => (k.name, k))⟩ := by
  have hcl := addConstraint_clauses l
  obtain ⟨h1, h2⟩ := new_keys h ha hb
  refine ⟨hcl.1, fkAlter_exec hcl.1 h1 h2 (F₀ := F) ?_ ?_ ?_⟩
  · rw [hcl.2.1]; exact dropNames_nil F
  · rw [hcl.2.2]; exact addNamed_spec Constraint.name l F hn hfr
  · exact fun e he => ((h.cols n a b ha hb).names _).mpr (hcols e he)

/-- the new foreign keys -/
theorem phase_later (h : Setup c f t N) (hk : Kit f t N) :
    Runs (During f t N) (tabsAt f t N ⟨fun _ => 3, fun _ => true, fun _ => false⟩)
      (((overlap f t).flatMap (laterOf (cycledNames (cycles (some f) t)) f t)).map .alter)
      (tabsAt f t N ⟨fun _ => 4, fun _ => true, fun _ => false⟩) := by
  have hnd := overlap_nodup (t := t) h.src.nodup
  have := runs_list (P := During f t N) (fun l : List Str => tabsAt f t N ⟨fun n => if n ∈ l then 4 else 3, fun _ => true, fun _ => false⟩)
    (fun n => (laterOf (cycledNames (cycles (some f) t)) f t n).map Op.alter) (overlap f t) [] ⟨_, ordered_high (by simp), rfl⟩ ?_
  · simp only [List.nil_append, List.not_mem_nil, if_false] at this
    rw [List.map_flatMap]
    refine Eq.mp ?_ this
    congr 1
    apply tabsAt_congr
    · intro n h1 h2
      simp [get?_overlap.mpr ⟨h1, h2⟩]
    · intro n _ _
      simp only [true_and]
      split <;> simp
    · simp
  · intro pre n post he
    simp only [List.nil_append]
    have hmem : n ∈ overlap f t := by rw [he]; simp
    obtain ⟨h1, h2⟩ := get?_overlap.mp hmem
    obtain ⟨a, ha⟩ := Option.ne_none_iff_exists'.mp h1
    obtain ⟨b, hb⟩ := Option.ne_none_iff_exists'.mp h2
    obtain ⟨hd, _, _⟩ := hk n a b ha hb
    have hnp : n ∉ pre := by
      rw [he, List.nodup_append] at hnd
      intro hp
      exact hnd.2.2 n hp n (by simp) rfl
    rw [laterOf_eq hd]
    have hlast : tabsAt f t N ⟨fun m => if m ∈ pre ++ [n] then 4 else 3, fun _ => true, fun _ => false⟩ =
        tabsAt f t N ((⟨fun m => if m ∈ pre then 4 else 3, fun _ => true, fun _ => false⟩ : Where).to n 4) := by
      congr 2
      funext m
      by_cases e : m = n
      · simp [e]
      · simp [e]
    rw [hlast]
    obtain ⟨hfk, hex⟩ := adds_alter h ha hb (ownAdds (cycledNames (cycles (some f) t)) a b n) (fks2 (cycles (some f) t) n a b)
      (ownAdds_nodup (h.src.keyedTable ha) (h.tgt.keyedTable hb)) (ownAdds_fresh h.src h.tgt h.ok ha hb)
      (fun e he => fks4_cols h ha hb e (by rw [fks4, fks3]; exact List.mem_append_left _ he))
    refine run_stageIf h ha hb (i := 3) (by simp [hnp]) _ ?_ hex (noBreak_fkOnly hfk) (ordered_high (fun m => by split <;> omega)) ?_
    · intro hz
      simp only [List.map_eq_nil_iff] at hz
      simp only [stageTab, fks3, hz, List.map_nil, List.append_nil]
    · apply ordered_high
      intro m
      simp only
      split
      · omega
      · split <;> omega

/-- the cycled foreign keys -/
theorem phase_again (h : Setup c f t N) :
    Runs (During f t N) (tabsAt f t N ⟨fun _ => 4, fun _ => true, fun _ => false⟩) ((groupAlters (cycleAdds (cycles (some f) t) [])).map .alter)
      (tabsAt f t N ⟨fun _ => 5, fun _ => true, fun _ => false⟩) := by
  have hfm : (groupAlters (cycleAdds (cycles (some f) t) [])).map Op.alter = (groupAlters (cycleAdds (cycles (some f) t) [])).flatMap (fun a => [Op.alter a]) := by
    simp [← List.map_eq_flatMap]
  rw [hfm]
  have := runs_list (P := During f t N) (fun l : List Alter => tabsAt f t N ⟨fun n => if n ∈ l.map Alter.table then 5 else 4, fun _ => true, fun _ => false⟩)
    (fun a => [Op.alter a]) (groupAlters (cycleAdds (cycles (some f) t) [])) [] ⟨_, ordered_high (by simp), rfl⟩ ?_
  · simp only [List.nil_append, List.map_nil, List.not_mem_nil, if_false] at this
    refine Eq.mp ?_ this
    congr 1
    funext n
    unfold tabsAt
    cases ha : f.get? n with
    | none => cases t.get? n <;> rfl
    | some a =>
      cases hb : t.get? n with
      | none =>
        simp only [goneTab]
        by_cases hn : n ∈ (groupAlters (cycleAdds (cycles (some f) t) [])).map Alter.table
        · simp [hn]
        · simp [hn]
      | some b =>
        by_cases hn : n ∈ (groupAlters (cycleAdds (cycles (some f) t) [])).map Alter.table
        · simp [hn]
        · have hz : againFks (cycles (some f) t) n = [] := by
            rw [List.eq_nil_iff_forall_not_mem]
            intro k hk
            obtain ⟨e, he, rfl⟩ := List.mem_map.mp hk
            obtain ⟨he, h2⟩ := List.mem_filter.mp he
            simp only [decide_eq_true_eq] at h2
            apply hn
            rw [groupAlters_tables, mem_groups_keys, cycleAdds_eq, List.map_map, List.mem_map]
            exact ⟨e, he, h2⟩
          unfold againFks at hz
          simp [hn, stageTab, fks4, hz]
  · intro pre x post he
    have hnd := group_tables_nodup rfl he
    have hx : x ∈ groupAlters (cycleAdds (cycles (some f) t) []) := by rw [he]; simp
    have hx' := hx
    rw [cycleAdds_eq] at hx'
    have hops := group_addOnly hx'
    have hk : x.table ∈ (groupAlters (cycleAdds (cycles (some f) t) [])).map Alter.table := List.mem_map_of_mem hx
    rw [groupAlters_tables, mem_groups_keys, cycleAdds_eq, List.map_map, List.mem_map] at hk
    obtain ⟨⟨m, k⟩, hmk, hmt⟩ := hk
    simp only [Function.comp] at hmt
    subst hmt
    obtain ⟨y, hy, hyt, q, hq⟩ := mem_cycleTargets hmk
    have hok := cycleOk h.src.toKeyedTables h.tgt.toKeyedTables hy
    obtain ⟨s, hs, _⟩ := hok.source
    rw [hyt] at hs
    have hb : ∃ b, t.get? x.table = some b := by
      rcases hok.target with ⟨h5, _⟩ | ⟨d, _, h5, _⟩
      · rw [hq] at h5; cases h5
      · rw [hyt] at h5; exact ⟨d, h5⟩
    obtain ⟨b, hb⟩ := hb
    have hto : tabsAt f t N ⟨fun n => if n ∈ ([] ++ pre ++ [x]).map Alter.table then 5 else 4, fun _ => true, fun _ => false⟩ =
        tabsAt f t N ((⟨fun n => if n ∈ ([] ++ pre).map Alter.table then 5 else 4, fun _ => true, fun _ => false⟩ : Where).to x.table 5) := by
      congr 2
      funext m
      by_cases e : m = x.table
      · simp [e]
      · simp [e]
    have hhigh : ((⟨fun n => if n ∈ ([] ++ pre).map Alter.table then 5 else 4, fun _ => true, fun _ => false⟩ : Where).to x.table 5).Ordered f t := by
      apply ordered_high
      intro n
      simp only
      split
      · omega
      · split <;> omega
    rw [hto]
    obtain ⟨hfk, hex⟩ := adds_alter h hs hb (againFks (cycles (some f) t) x.table) (fks3 (cycles (some f) t) x.table s b)
      (againFks_nodup h.src h.tgt x.table) (again_fresh h.src h.tgt h.ok hs hb)
      (fun e he => fks4_cols h hs hb e (by rw [fks4]; exact he))
    have hops' : x.ops = (againFks (cycles (some f) t) x.table).map AlterOp.addConstraint := hops
    rw [← hops'] at hfk hex
    refine run_stage h hs hb (i := 4) ?_ x.ops hex (noBreak_fkOnly hfk) (ordered_high (fun m => by split <;> omega)) hhigh
    simp [hnd]

/-- the tables which go -/
theorem phase_drops (h : Setup c f t N) :
    Runs (During f t N) (tabsAt f t N ⟨fun _ => 5, fun _ => true, fun _ => false⟩) ((removed f t).map .removeTable)
      (tabsAt f t N ⟨fun _ => 5, fun _ => true, fun _ => true⟩) := by
  have hfm : (removed f t).map Op.removeTable = (removed f t).flatMap (fun a => [Op.removeTable a]) := by
    simp [← List.map_eq_flatMap]
  rw [hfm]
  have := runs_list (P := During f t N) (fun l : List Str => tabsAt f t N ⟨fun _ => 5, fun _ => true, fun n => l.contains n⟩)
    (fun a => [Op.removeTable a]) (removed f t) [] ⟨_, ordered_high (by simp), rfl⟩ ?_
  · simp only [List.nil_append, List.contains_nil] at this
    refine Eq.mp ?_ this
    congr 1
    apply tabsAt_congr
    · simp
    · intro n h1 h2
      have : n ∈ removed f t := by
        rw [mem_removed]
        obtain ⟨a, ha⟩ := Option.ne_none_iff_exists'.mp h1
        exact ⟨Dict.mem_keys_of_get? ha, Dict.get?_eq_none.mp h2⟩
      simp [this]
    · simp
  · intro pre n post he
    have hmem : n ∈ removed f t := by rw [he]; simp
    obtain ⟨h1, h2⟩ := mem_removed.mp hmem
    obtain ⟨a, ha⟩ := Dict.exists_get? h1
    have hb := Dict.get?_eq_none.mpr h2
    have hnp : n ∉ pre := by
      have hnd := removed_nodup (t := t) h.src.nodup
      rw [he, List.nodup_append] at hnd
      intro hp
      exact hnd.2.2 n hp n (by simp) rfl
    have heq : (tabsAt f t N ⟨fun _ => 5, fun _ => true, fun m => ([] ++ pre).contains m⟩).put n none =
        tabsAt f t N ⟨fun _ => 5, fun _ => true, fun m => ([] ++ pre ++ [n]).contains m⟩ := by
      funext m
      by_cases e : m = n
      · subst e
        rw [Tabs.put_same]
        simp [tabsAt, ha, hb]
      · rw [Tabs.put_other _ _ e]
        simp [tabsAt, e]
    rw [← heq]
    refine runs_drop (st := goneTab (cycles (some f) t) n a 5) ?_ ?_ ⟨_, ordered_high (by simp), rfl⟩ ?_
    · simp [tabsAt, ha, hb, hnp]
    · rw [heq]
      exact tabs_cons h (ordered_high (by simp))
    · rw [heq]
      exact ⟨_, ordered_high (by simp), rfl⟩

/-- the whole plan -/
theorem plan_runs (h : Setup c f t N) (hk : Kit f t N) :
    Runs (During f t N) (tabsAt f t N ⟨fun _ => 0, fun _ => false, fun _ => false⟩) (middle t (some f))
      (tabsAt f t N ⟨fun _ => 5, fun _ => true, fun _ => true⟩) := by
  unfold middle
  exact (phase_creates h).append ((phase_temp h).append ((phase_now h hk).append ((phase_later h hk).append ((phase_again h).append (phase_drops h)))))

theorem setup_exists {c : Bool} (hf : Accepted c f) (ht : Accepted true t) (hu : Untroubled f t)
    (hd : ∀ n a b, f.get? n = some a → t.get? n = some b → a.toSplit b = .ok (diffOf f t n)) : ∃ N, Setup c f t N ∧ Kit f t N := by
  have key : ∀ n, ∃ cols : Dict Column, ∀ a b, f.get? n = some a → t.get? n = some b → ColsOk a b cols ∧
      ((diffOf f t n).kitchenSink = [] → cols = a.columns ∧ finalKeys a b = (ofTable a).keys) ∧
      ∀ F : Dict Constraint, (∀ e ∈ F, e.2.column ∈ b.columns.keys) →
        alterTable ⟨a.columns, (ofTable a).keys, F⟩ ((diffOf f t n).kitchenSink.flatMap clauses) = some ⟨cols, finalKeys a b, F⟩ := by
    intro n
    cases ha : f.get? n with
    | none => exact ⟨[], by simp⟩
    | some a =>
      cases hb : t.get? n with
      | none => exact ⟨[], by simp⟩
      | some b =>
        obtain ⟨va, pa⟩ := hf.valid n a ha
        obtain ⟨vb, pb⟩ := ht.valid n b hb
        obtain ⟨cols, h1, h2, h3⟩ := kitchen_all va vb pa pb (hu.primary n a b ha hb) (hd n a b ha hb)
        refine ⟨cols, ?_⟩
        intro a' b' e e'
        cases e
        cases e'
        exact ⟨h1, h2, h3⟩
  have hN := fun n => Classical.choose_spec (key n)
  exact ⟨fun n => Classical.choose (key n), ⟨hf, ht, hu, fun n a b ha hb => (hN n a b ha hb).1⟩, fun n a b ha hb => ⟨hd n a b ha hb, (hN n a b ha hb).2⟩⟩

end

end Mygrations
