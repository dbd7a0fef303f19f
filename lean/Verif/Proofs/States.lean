import Verif.Proofs.Stages

/-! # All states of the database during a migration are consistent -/

namespace Mygrations
open Table MySQL Mygration

/-- where a migration is: the stage of every table, the tables created and dropped so far -/
structure Where where
  g : Str → Nat
  cr : Str → Bool
  dr : Str → Bool

/-- a table which stays, at its stages: as found; without the cycled foreign keys; without the foreign keys which go; with the new
columns and keys; with the new foreign keys; with the cycled foreign keys again -/
def stageTab (cs : List Cycle) (cols : Dict Column) (n : Str) (a b : Table) : Nat → STable
  | 0 => ⟨a.columns, (ofTable a).keys, a.constraints⟩
  | 1 => ⟨a.columns, (ofTable a).keys, fks1 cs n a⟩
  | 2 => ⟨a.columns, (ofTable a).keys, fks2 cs n a b⟩
  | 3 => ⟨cols, finalKeys a b, fks2 cs n a b⟩
  | 4 => ⟨cols, finalKeys a b, fks3 cs n a b⟩
  | _ => ⟨cols, finalKeys a b, fks4 cs n a b⟩

/-- a table which goes -/
def goneTab (cs : List Cycle) (n : Str) (a : Table) (g : Nat) : STable :=
  ⟨a.columns, (ofTable a).keys, if g = 0 then a.constraints else fks1 cs n a⟩

/-- the database during the migration -/
def tabsAt (f t : Dict Table) (N : Str → Dict Column) (w : Where) : Tabs := fun n =>
  match f.get? n, t.get? n with
  | some a, some b => some (stageTab (cycles (some f) t) (N n) n a b (w.g n))
  | some a, none => if w.dr n then none else some (goneTab (cycles (some f) t) n a (w.g n))
  | none, some b => if w.cr n then some (ofTable b) else none
  | none, none => none

/-- what is known of the two databases -/
structure Setup [PyNum] (c : Bool) (f t : Dict Table) (N : Str → Dict Column) : Prop where
  src : Accepted c f
  tgt : Accepted true t
  ok : Untroubled f t
  cols : ∀ n a b, f.get? n = some a → t.get? n = some b → ColsOk a b (N n)

/-- the order of the stages -/
structure Where.Ordered (f t : Dict Table) (w : Where) : Prop where
  first : ∀ p, 3 ≤ w.g p → f.get? p ≠ none → t.get? p ≠ none → ∀ n, 1 ≤ w.g n ∧ w.cr n = true
  before : ∀ n p, Before (overlap f t) n p → 3 ≤ w.g p → 3 ≤ w.g n
  late : ∀ p, 4 ≤ w.g p → f.get? p ≠ none → t.get? p ≠ none → ∀ n, f.get? n ≠ none → t.get? n ≠ none → 3 ≤ w.g n

section
variable [PyNum] {c : Bool} {f t : Dict Table} {N : Str → Dict Column} {w : Where}

/-- a table which still has its columns and keys of before -/
def OldView (f t : Dict Table) (w : Where) (n : Str) (st : STable) : Prop :=
  (∃ a, f.get? n = some a ∧ st.cols = a.columns ∧ st.keys = (ofTable a).keys) ∧ (t.get? n ≠ none → w.g n < 3)

/-- a table which offers what is declared -/
def NewView (f t : Dict Table) (w : Where) (n : Str) (st : STable) : Prop :=
  (∃ b, t.get? n = some b ∧ ∀ x τ, Offers st.cols st.keys x τ ↔ Offers b.columns (ofTable b).keys x τ) ∧ (f.get? n ≠ none → 3 ≤ w.g n)

theorem tab_view (h : Setup c f t N) {n : Str} {st : STable} (hn : tabsAt f t N w n = some st) : OldView f t w n st ∨ NewView f t w n st := by
  unfold tabsAt at hn
  cases ha : f.get? n with
  | none =>
    cases hb : t.get? n with
    | none => simp [ha, hb] at hn
    | some b =>
      simp only [ha, hb] at hn
      split at hn
      · cases hn
        exact .inr ⟨⟨b, hb, fun x τ => by rw [ofTable_cols (h.tgt.keyedTable hb)]⟩, by simp [ha]⟩
      · cases hn
  | some a =>
    cases hb : t.get? n with
    | none =>
      simp only [ha, hb] at hn
      split at hn
      · cases hn
      · cases hn
        exact .inl ⟨⟨a, ha, rfl, rfl⟩, by simp [hb]⟩
    | some b =>
      simp only [ha, hb, Option.some.injEq] at hn
      subst hn
      obtain ⟨va, pa⟩ := h.src.valid n a ha
      obtain ⟨vb, pb⟩ := h.tgt.valid n b hb
      have hnew := new_offers va vb pa pb (h.src.tidy n a ha) (h.tgt.tidy n b hb) (h.cols n a b ha hb)
      unfold OldView NewView
      rw [ha, hb]
      rcases w.g n with _ | _ | _ | _ | _ | k
      · exact .inl ⟨⟨a, rfl, rfl, rfl⟩, by simp⟩
      · exact .inl ⟨⟨a, rfl, rfl, rfl⟩, by simp⟩
      · exact .inl ⟨⟨a, rfl, rfl, rfl⟩, by simp⟩
      · exact .inr ⟨⟨b, rfl, hnew⟩, by simp⟩
      · exact .inr ⟨⟨b, rfl, hnew⟩, by simp⟩
      · exact .inr ⟨⟨b, rfl, hnew⟩, by simp⟩

/-- a foreign key of before, of a table with its columns of before -/
def OldFk (f t : Dict Table) (w : Where) (n x : Str) (k : Constraint) : Prop :=
  (∃ a, f.get? n = some a ∧ a.constraints.get? x = some k) ∧ (1 ≤ w.g n → ¬ (Touched f t n k ∧ HasCounterpart t n k)) ∧
  (t.get? n ≠ none → w.g n < 3) ∧ (t.get? n ≠ none → w.g n = 2 → Stays t n k)

/-- a declared foreign key, of a table with its declared columns -/
def NewFk (f t : Dict Table) (w : Where) (n x : Str) (k : Constraint) : Prop :=
  (∃ b k', t.get? n = some b ∧ b.constraints.get? x = some k' ∧ k.SameFk k') ∧
  (∀ a, f.get? n = some a → 4 ≤ w.g n ∨ (3 ≤ w.g n ∧ a.constraints.get? x = some k ∧ ¬ Touched f t n k))

theorem fks2_new (h : Setup c f t N) {n x : Str} {a b : Table} {k : Constraint} (ha : f.get? n = some a) (hb : t.get? n = some b)
    (hk : (x, k) ∈ fks2 (cycles (some f) t) n a b) :
    a.constraints.get? x = some k ∧ ¬ Touched f t n k ∧ ∃ k', b.constraints.get? x = some k' ∧ k.SameFk k' := by
  obtain ⟨h1, k', h2, h3⟩ := (mem_fks2 h.src h.tgt h.ok ha hb).mp hk
  obtain ⟨h4, h5⟩ := (mem_fks1 h.src h.tgt ha).mp h1
  have hs := sameFk_of_render h.src h.tgt ha hb h4 h2 h3
  exact ⟨h4, fun ht => h5 ⟨ht, .inr ⟨b, hb, k', get?_value h2, .inl hs.1.symm⟩⟩, k', h2, hs⟩

theorem tab_fk (h : Setup c f t N) {n x : Str} {st : STable} {k : Constraint} (hn : tabsAt f t N w n = some st) (hk : (x, k) ∈ st.fks) :
    (OldFk f t w n x k ∧ OldView f t w n st) ∨ (NewFk f t w n x k ∧ NewView f t w n st) := by
  have same : ∀ k : Constraint, k.SameFk k := fun k => ⟨rfl, rfl, rfl, rfl, rfl, rfl⟩
  unfold tabsAt at hn
  cases ha : f.get? n with
  | none =>
    cases hb : t.get? n with
    | none => simp [ha, hb] at hn
    | some b =>
      simp only [ha, hb] at hn
      split at hn
      · cases hn
        have kb := h.tgt.keyedTable hb
        rw [ofTable_fks kb] at hk
        refine .inr ⟨⟨⟨b, k, hb, Dict.get?_of_mem kb.fkNodup hk, same k⟩, by simp [ha]⟩, ⟨b, hb, fun x τ => by rw [ofTable_cols kb]⟩, by simp [ha]⟩
      · cases hn
  | some a =>
    have ka := h.src.keyedTable ha
    cases hb : t.get? n with
    | none =>
      simp only [ha, hb] at hn
      split at hn
      · cases hn
      · cases hn
        refine .inl ⟨⟨?_, ?_, by simp [hb], by simp [hb]⟩, ⟨a, ha, rfl, rfl⟩, by simp [hb]⟩
        · simp only [goneTab] at hk
          split at hk
          · exact ⟨a, ha, Dict.get?_of_mem ka.fkNodup hk⟩
          · exact ⟨a, ha, ((mem_fks1 h.src h.tgt ha).mp hk).1⟩
        · intro hg
          simp only [goneTab] at hk
          rw [if_neg (by omega)] at hk
          exact ((mem_fks1 h.src h.tgt ha).mp hk).2
    | some b =>
      simp only [ha, hb, Option.some.injEq] at hn
      subst hn
      obtain ⟨va, pa⟩ := h.src.valid n a ha
      obtain ⟨vb, pb⟩ := h.tgt.valid n b hb
      have hnew := new_offers va vb pa pb (h.src.tidy n a ha) (h.tgt.tidy n b hb) (h.cols n a b ha hb)
      have h4 : (x, k) ∈ fks4 (cycles (some f) t) n a b → ∃ b k', t.get? n = some b ∧ b.constraints.get? x = some k' ∧ k.SameFk k' := by
        intro hm
        obtain ⟨k', h1, h2⟩ := mem_fks4 h.src h.tgt h.ok ha hb hm
        exact ⟨b, k', hb, h1, h2⟩
      unfold OldView NewView OldFk NewFk
      rw [ha, hb]
      rw [hb] at h4
      generalize w.g n = g at hk ⊢
      rcases g with _ | _ | _ | _ | _ | g
      · simp only [stageTab] at hk
        exact .inl ⟨⟨⟨a, rfl, Dict.get?_of_mem ka.fkNodup hk⟩, by simp, by simp, by simp⟩, ⟨a, rfl, rfl, rfl⟩, by simp⟩
      · simp only [stageTab] at hk
        obtain ⟨h1, h2⟩ := (mem_fks1 h.src h.tgt ha).mp hk
        exact .inl ⟨⟨⟨a, rfl, h1⟩, fun _ => h2, by simp, by simp⟩, ⟨a, rfl, rfl, rfl⟩, by simp⟩
      · simp only [stageTab] at hk
        obtain ⟨h1, h2, k', h3, h5⟩ := fks2_new h ha hb hk
        refine .inl ⟨⟨⟨a, rfl, h1⟩, fun _ h => h2 h.1, by simp, fun _ _ => ⟨b, k', hb, ?_, h5⟩⟩, ⟨a, rfl, rfl, rfl⟩, by simp⟩
        rw [get?_name ka h1]; exact h3
      · simp only [stageTab] at hk
        obtain ⟨h1, h2, k', h3, h5⟩ := fks2_new h ha hb hk
        refine .inr ⟨⟨⟨b, k', rfl, h3, h5⟩, ?_⟩, ⟨b, rfl, hnew⟩, by simp⟩
        intro a' ha'
        cases ha'
        exact .inr ⟨by simp, h1, h2⟩
      · simp only [stageTab] at hk
        exact .inr ⟨⟨h4 (by rw [fks4]; exact List.mem_append_left _ hk), fun _ _ => .inl (by omega)⟩, ⟨b, rfl, hnew⟩, by simp⟩
      · simp only [stageTab] at hk
        exact .inr ⟨⟨h4 hk, fun _ _ => .inl (by omega)⟩, ⟨b, rfl, hnew⟩, by simp⟩

theorem untouched_offers {n x : Str} {τ τ' : Str × Bool} (h : ¬ TypeChanges f t n x) (h1 : OffersIn f n x τ) (h2 : OffersIn t n x τ') : τ = τ' := by
  obtain ⟨a, ha, ca, g1, _, rfl⟩ := h1
  obtain ⟨b, hb, cb, g2, _, rfl⟩ := h2
  have : ¬ ca.TypeDiffers cb := fun hd => h ⟨a, b, ca, cb, ha, hb, g1, g2, hd⟩
  simp only [Column.TypeDiffers, not_or, Classical.not_not] at this
  simp [colTy, this.1, this.2.2.1]

theorem linked_offers {a b : Table} {k : Constraint} {K : Dict Index} {τ : Str × Bool} (h : Linked a k b) (ho : Offers a.columns K k.column τ) :
    Offers b.columns (ofTable b).keys k.fcolumn τ := by
  obtain ⟨h1, ca, cb, h2, h3, h4⟩ := h
  obtain ⟨ca', h5, _, h6⟩ := ho
  rw [h2] at h5
  cases h5
  exact ⟨cb, h3, h1, by rw [← h6, linkable_iff.mp h4]⟩

theorem tabs_fits (h : Setup c f t N) (hw : w.Ordered f t) {n x : Str} {st : STable} {k : Constraint} (hn : tabsAt f t N w n = some st)
    (hk : (x, k) ∈ st.fks) : Fits (tabsAt f t N w) st k := by
  rw [fits_offers]
  rcases tab_fk h hn hk with ⟨⟨⟨a, ha, hka⟩, htouch, hstage, hstays⟩, ⟨a', ha', hcols, hkeys⟩, _⟩ | ⟨⟨⟨b, k', hb, hkb, hsame⟩, hsrc⟩, ⟨b', hb', hoff⟩, hst3⟩
  · -- a foreign key of before
    rw [ha] at ha'
    cases ha'
    obtain ⟨τ, ⟨a', ha', ho⟩, hpar⟩ := accepted_fits h.src ha hka
    rw [ha] at ha'
    cases ha'
    refine ⟨τ, by rw [hcols, hkeys]; exact ho, ?_⟩
    intro p hp
    rcases tab_view h hp with ⟨⟨q, hq, hqc, hqk⟩, _⟩ | ⟨⟨q, hq, hqo⟩, hq3⟩
    · obtain ⟨q', hq', ho'⟩ := hpar q hq
      rw [hq] at hq'
      cases hq'
      rw [hqc, hqk]
      exact ho'
    · rw [hqo]
      cases hfq : f.get? k.ftable with
      | none =>
        exact linked_offers (h.ok.dangling n a k q ha (get?_value hka) hfq hq) ho
      | some q0 =>
        have hg := hq3 (by simp [hfq])
        have hfirst := hw.first _ hg (by simp [hfq]) (by simp [hq]) n
        have hnt := htouch hfirst.1
        have hne : k.ftable ≠ n := by
          intro e
          rw [e] at hg hq
          have := hstage (by simp [hq])
          omega
        have hold := hpar q0 hfq
        have fin : ¬ TypeChanges f t k.ftable k.fcolumn → (∃ τ', OffersIn t k.ftable k.fcolumn τ') → Offers q.columns (ofTable q).keys k.fcolumn τ := by
          rintro hch ⟨τ', hnew⟩
          have := untouched_offers hch hold hnew
          subst this
          obtain ⟨q', hq', ho'⟩ := hnew
          rw [hq] at hq'
          cases hq'
          exact ho'
        by_cases hsty : Stays t n k
        · obtain ⟨b, k', hb, hkb, hsame⟩ := hsty
          have hnt' : ¬ Touched f t n k := fun ht => hnt ⟨ht, .inr ⟨b, hb, k', get?_value hkb, .inl (hsame.1.symm)⟩⟩
          obtain ⟨τ', _, hpar'⟩ := accepted_fits h.tgt hb hkb
          obtain ⟨_, _, h3, h4, _⟩ := hsame
          rw [← h3, ← h4] at hpar'
          exact fin (fun ht => hnt' ⟨_, _, ht, .inr ⟨rfl, rfl⟩⟩) ⟨τ', hpar' q hq⟩
        · rcases h.ok.leaving n a k q ha (get?_value hka) hsty hne (by simp [hfq]) hq with ⟨h1, _⟩ | h1 | h1
          · exact linked_offers h1 ho
          · exact absurd h1 hnt
          · have h3 := hw.before _ _ h1 hg
            obtain ⟨l1, l2, l3, hl⟩ := h1
            have : n ∈ overlap f t := by rw [hl]; simp
            obtain ⟨_, hm⟩ := mem_overlap.mp this
            have := hstage (fun e => Dict.get?_eq_none.mp e hm)
            omega
  · -- a declared foreign key
    rw [hb] at hb'
    cases hb'
    obtain ⟨τ, ⟨b', hb', ho⟩, hpar⟩ := accepted_fits h.tgt hb hkb
    rw [hb] at hb'
    cases hb'
    obtain ⟨q0, hq0⟩ := accepted_parent h.tgt hb hkb
    obtain ⟨_, e2, e3, e4, _⟩ := hsame
    rw [← e2] at ho
    rw [← e3] at hpar hq0
    rw [← e4] at hpar
    refine ⟨τ, by rw [hoff]; exact ho, ?_⟩
    intro p hp
    obtain ⟨q0', hq0', hpo⟩ := hpar q0 hq0
    rw [hq0] at hq0'
    cases hq0'
    rcases tab_view h hp with ⟨⟨q, hq, hqc, hqk⟩, hq3⟩ | ⟨⟨q, hq, hqo⟩, _⟩
    · -- its parent still has the columns of before
      have hq3 := hq3 (by simp [hq0])
      rw [hqc, hqk]
      have fin : ¬ TypeChanges f t k.ftable k.fcolumn → (∃ τ', OffersIn f k.ftable k.fcolumn τ') → Offers q.columns (ofTable q).keys k.fcolumn τ := by
        rintro hch ⟨τ', hold⟩
        have := untouched_offers hch hold ⟨q0, hq0, hpo⟩
        subst this
        obtain ⟨q', hq', ho'⟩ := hold
        rw [hq] at hq'
        cases hq'
        exact ho'
      cases ha : f.get? n with
      | none =>
        have h1 := (h.ok.parents n b k' q hb ha (get?_value hkb) (by rw [← e3]; exact hq)).1
        rw [e2] at ho
        rw [e4]
        exact linked_offers h1 ho
      | some a =>
        rcases hsrc a ha with h4 | ⟨h3, hka, hnt⟩
        · have := hw.late n h4 (by simp [ha]) (by simp [hb]) k.ftable (by simp [hq]) (by simp [hq0])
          omega
        · obtain ⟨τ', _, hpar'⟩ := accepted_fits h.src ha hka
          exact fin (fun ht => hnt ⟨_, _, ht, .inr ⟨rfl, rfl⟩⟩) ⟨τ', hpar' q hq⟩
    · rw [hq0] at hq
      cases hq
      rw [hqo]
      exact hpo

/-- the name is that of a foreign key of before -/
def OldName (f t : Dict Table) (w : Where) (n x : Str) : Prop := (∃ a, f.get? n = some a ∧ x ∈ a.constraints.keys) ∧ (t.get? n ≠ none → w.g n < 3)

theorem tabs_unique (h : Setup c f t N) (hw : w.Ordered f t) {n m x : Str} {st st' : STable} (hn : tabsAt f t N w n = some st)
    (hm : tabsAt f t N w m = some st') (hne : n ≠ m) (hx : x ∈ st.fks.keys) : x ∉ st'.fks.keys := by
  intro hx'
  obtain ⟨k, hk⟩ := Dict.exists_get? hx
  obtain ⟨l, hl⟩ := Dict.exists_get? hx'
  have key : ∀ {n m : Str} {k l : Constraint}, n ≠ m → OldFk f t w n x k → NewFk f t w m x l → False := by
    rintro n m k l hne ⟨⟨a, ha, hka⟩, htouch, hstage, _⟩ ⟨⟨b, l', hb, hlb, _⟩, hsrc⟩
    cases ha' : f.get? m with
    | none => exact h.ok.created m b hb ha' n a ha x (Dict.mem_keys_of_get? hlb) (Dict.mem_keys_of_get? hka)
    | some a' =>
      rcases hsrc a' ha' with h4 | ⟨_, hla, _⟩
      · cases hb' : t.get? n with
        | none =>
          have hkn := get?_name (h.src.keyedTable ha) hka
          have ht := h.ok.dropped n a k m b ha hb' (get?_value hka) hb (by rw [hkn]; exact Dict.mem_keys_of_get? hlb)
          exact htouch (hw.first m (by omega) (by simp [ha']) (by simp [hb]) n).1 ⟨ht, .inl hb'⟩
        | some b' =>
          have := hstage (by simp [hb'])
          have := hw.late m h4 (by simp [ha']) (by simp [hb]) n (by simp [ha]) (by simp [hb'])
          omega
      · exact accepted_unique h.src ha ha' hne (Dict.mem_keys_of_get? hka) (Dict.mem_keys_of_get? hla)
  rcases tab_fk h hn (Dict.mem_of_get? hk) with ⟨h1, _⟩ | ⟨h1, _⟩ <;> rcases tab_fk h hm (Dict.mem_of_get? hl) with ⟨h2, _⟩ | ⟨h2, _⟩
  · obtain ⟨⟨a, ha, hka⟩, _⟩ := h1
    obtain ⟨⟨a', ha', hla⟩, _⟩ := h2
    exact accepted_unique h.src ha ha' hne (Dict.mem_keys_of_get? hka) (Dict.mem_keys_of_get? hla)
  · exact key hne h1 h2
  · exact key hne.symm h2 h1
  · obtain ⟨⟨b, k', hb, hkb, _⟩, _⟩ := h1
    obtain ⟨⟨b', l', hb', hlb, _⟩, _⟩ := h2
    exact accepted_unique h.tgt hb hb' hne (Dict.mem_keys_of_get? hkb) (Dict.mem_keys_of_get? hlb)

/-- every state of the migration is consistent -/
theorem tabs_cons (h : Setup c f t N) (hw : w.Ordered f t) : (tabsAt f t N w).Cons :=
  ⟨fun _ _ hn _ _ hk => tabs_fits h hw hn hk, fun _ _ _ _ hn hm hne _ hx => tabs_unique h hw hn hm hne hx⟩

end

end Mygrations
