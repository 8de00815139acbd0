import Verif.Lemmas.Gen.Walk2

/-! # The fixpoints of the cycle detector -/
namespace PP.Gen

theorem nodup_length_le {l u : List Bytes} (hn : l.Nodup) (h : ∀ x ∈ l, x ∈ u) : l.length ≤ u.length := by
  induction l generalizing u with
  | nil => simp
  | cons a l ih =>
    have h1 := List.nodup_cons.mp hn
    have h2 := ih (u := u.erase a) h1.2 fun x hx => by
      refine (List.mem_erase_of_ne ?_).mpr (h x (by simp [hx]))
      rintro rfl
      exact h1.1 hx
    have h3 := List.length_erase_of_mem (h a (by simp))
    have h4 := List.length_pos_of_mem (h a (by simp))
    simp only [List.length_cons]; omega

/-! ### Marking -/

/-- The names that get marked, starting from `base`. -/
inductive Grounded (m : Map (List Bytes)) (base : List Bytes) : Bytes → Prop where
  | base {x} : x ∈ base → Grounded m base x
  | step {x l} : (x, l) ∈ m → (∀ y ∈ l, Grounded m base y) → Grounded m base x

/-- Nothing more to mark. -/
def MarkClosed (m : Map (List Bytes)) (marked : List Bytes) : Prop := ∀ x l, (x, l) ∈ m → (∀ y ∈ l, y ∈ marked) → x ∈ marked

section
variable {ord : HashOrd} {lbl pass : Nat}

/-- One step of a pass. -/
def markStep (ord : HashOrd) (lbl pass : Nat) (marked : List Bytes) (p : Bytes × List Bytes) : List Bytes :=
  if (ord.perm [lbl, pass, marked.length] p.2).all fun r => marked.contains r then setInsert marked p.1 else marked

theorem all_perm {marked l : List Bytes} {L : List Nat} : ((ord.perm L l).all fun r => marked.contains r) = true ↔ ∀ y ∈ l, y ∈ marked := by
  rw [List.all_eq_true]
  constructor
  · intro h y hy
    have := h y ((ord.ok L l).mem_iff.mpr hy)
    simpa using this
  · intro h y hy
    simpa using h y ((ord.ok L l).mem_iff.mp hy)

theorem setInsert_prefix {s : List Bytes} {x} : s <+: setInsert s x := by
  unfold setInsert
  split
  · exact List.prefix_refl _
  · exact List.prefix_append _ _

theorem markStep_prefix {marked p} : marked <+: markStep ord lbl pass marked p := by
  unfold markStep
  split
  · exact setInsert_prefix
  · exact List.prefix_refl _

theorem fold_prefix {l : List (Bytes × List Bytes)} {marked : List Bytes} : marked <+: l.foldl (markStep ord lbl pass) marked := by
  induction l generalizing marked with
  | nil => exact List.prefix_refl _
  | cons p l ih => exact markStep_prefix.trans ih

theorem fold_closed {l : List (Bytes × List Bytes)} {marked : List Bytes}
    (h : (l.foldl (markStep ord lbl pass) marked).length = marked.length) :
    l.foldl (markStep ord lbl pass) marked = marked ∧ ∀ x y, (x, y) ∈ l → (∀ z ∈ y, z ∈ marked) → x ∈ marked := by
  induction l generalizing marked with
  | nil => exact ⟨rfl, by simp⟩
  | cons p l ih =>
    rw [List.foldl_cons] at h ⊢
    have h1 := (markStep_prefix (ord := ord) (lbl := lbl) (pass := pass) (marked := marked) (p := p))
    have h2 := (fold_prefix (ord := ord) (lbl := lbl) (pass := pass) (l := l) (marked := markStep ord lbl pass marked p))
    have he : markStep ord lbl pass marked p = marked := (h1.eq_of_length (by have := h1.length_le; have := h2.length_le; omega)).symm
    rw [he] at h ⊢
    obtain ⟨i1, i2⟩ := ih h
    refine ⟨i1, ?_⟩
    intro x y hxy hz
    rcases List.mem_cons.mp hxy with rfl | hxy
    · unfold markStep at he
      rw [if_pos (all_perm.mpr hz)] at he
      have : x ∈ setInsert marked x := mem_setInsert.mpr (Or.inr rfl)
      rwa [he] at this
    · exact i2 x y hxy hz

theorem fold_sound {m : Map (List Bytes)} {base : List Bytes} {l : List (Bytes × List Bytes)} {marked : List Bytes} (hl : ∀ p ∈ l, p ∈ m)
    (h : ∀ x ∈ marked, Grounded m base x) : ∀ x ∈ l.foldl (markStep ord lbl pass) marked, Grounded m base x := by
  induction l generalizing marked with
  | nil => exact h
  | cons p l ih =>
    refine ih (fun q hq => hl q (by simp [hq])) ?_
    intro x hx
    unfold markStep at hx
    split at hx
    · next hp =>
      rcases mem_setInsert.mp hx with hx | rfl
      · exact h x hx
      · exact .step (hl p (by simp)) fun y hy => h y (all_perm.mp hp y hy)
    · exact h x hx

theorem fold_nodup {l : List (Bytes × List Bytes)} {marked : List Bytes} (h : marked.Nodup) : (l.foldl (markStep ord lbl pass) marked).Nodup := by
  induction l generalizing marked with
  | nil => exact h
  | cons p l ih =>
    refine ih ?_
    unfold markStep
    split
    · exact setInsert_nodup h
    · exact h
theorem fold_sub {l : List (Bytes × List Bytes)} {marked : List Bytes} : ∀ x ∈ l.foldl (markStep ord lbl pass) marked, x ∈ marked ∨ x ∈ l.map (·.1) := by
  induction l generalizing marked with
  | nil => intro x hx; exact Or.inl hx
  | cons p l ih =>
    intro x hx
    rcases ih x hx with h | h
    · unfold markStep at h
      split at h
      · rcases mem_setInsert.mp h with h | rfl
        · exact Or.inl h
        · exact Or.inr (by simp)
      · exact Or.inl h
    · exact Or.inr (by simp at h ⊢; exact Or.inr h)

theorem mark_loop {m : Map (List Bytes)} {base : List Bytes} : ∀ (d : Nat) {l : Option Nat} {pass : Nat} {marked : List Bytes},
    (base ++ m.keys).length - marked.length ≤ d → marked.Nodup → (∀ x ∈ base, x ∈ marked) → (∀ x ∈ marked, x ∈ base ++ m.keys) →
    (∀ x ∈ marked, Grounded m base x) → (l = some marked.length → MarkClosed m marked) →
    ∃ M, Conv (fun n => markLoop ord lbl m n l pass marked) (.ok M) ∧ M.Nodup ∧ (∀ x, x ∈ M ↔ Grounded m base x) := by
  have fin : ∀ {M : List Bytes}, (∀ x ∈ base, x ∈ M) → (∀ x ∈ M, Grounded m base x) → MarkClosed m M → ∀ x, x ∈ M ↔ Grounded m base x := by
    intro M h1 h2 h3 x
    refine ⟨h2 x, fun h => ?_⟩
    induction h with
    | base h => exact h1 _ h
    | step hl _ ih => exact h3 _ _ hl ih
  have zero : ∀ {l pass marked}, markLoop ord lbl m 0 l pass marked = .oof := by intros; rfl
  have stop : ∀ {pass : Nat} {marked : List Bytes}, Conv (fun n => markLoop ord lbl m n (some marked.length) pass marked) (.ok marked) := by
    intro pass marked
    exact Conv.succ zero ((Conv.ok _).congr fun n => by simp [markLoop])
  intro d
  induction d with
  | zero =>
    intro l pass marked hd hn hb hs hg hl
    by_cases hlm : l = some marked.length
    · subst hlm
      exact ⟨marked, stop, hn, fin hb hg (hl rfl)⟩
    · have hp : markPass ord lbl pass m marked = (ord.perm [lbl, pass] m).foldl (markStep ord lbl pass) marked := rfl
      have hle : ((ord.perm [lbl, pass] m).foldl (markStep ord lbl pass) marked).length ≤ (base ++ m.keys).length := by
        have hnd := fold_nodup (ord := ord) (lbl := lbl) (pass := pass) (l := ord.perm [lbl, pass] m) hn
        refine nodup_length_le hnd ?_
        intro x hx
        rcases fold_sub x hx with h | h
        · exact hs x h
        · exact List.mem_append_right _ (((ord.ok _ _).map _).mem_iff.mp h)
      have hpre := (fold_prefix (ord := ord) (lbl := lbl) (pass := pass) (l := ord.perm [lbl, pass] m) (marked := marked)).length_le
      have hc := fold_closed (ord := ord) (lbl := lbl) (pass := pass) (l := ord.perm [lbl, pass] m) (marked := marked) (by omega)
      refine ⟨marked, ?_, hn, fin hb hg fun x y hxy => hc.2 x y ((ord.ok _ _).mem_iff.mpr hxy)⟩
      refine Conv.succ zero ((stop (pass := pass + 1)).congr fun n => ?_)
      simp only [markLoop, if_neg hlm, hp, hc.1]
  | succ d ih =>
    intro l pass marked hd hn hb hs hg hl
    by_cases hlm : l = some marked.length
    · subst hlm
      exact ⟨marked, stop, hn, fin hb hg (hl rfl)⟩
    · have hp : markPass ord lbl pass m marked = (ord.perm [lbl, pass] m).foldl (markStep ord lbl pass) marked := rfl
      have hpre := (fold_prefix (ord := ord) (lbl := lbl) (pass := pass) (l := ord.perm [lbl, pass] m) (marked := marked))
      have e0 : ∀ n, markLoop ord lbl m (n + 1) l pass marked = markLoop ord lbl m n (some marked.length) (pass + 1)
          ((ord.perm [lbl, pass] m).foldl (markStep ord lbl pass) marked) := by
        intro n
        simp only [markLoop, if_neg hlm, hp]
      by_cases hle : ((ord.perm [lbl, pass] m).foldl (markStep ord lbl pass) marked).length = marked.length
      · have hc := fold_closed hle
        refine ⟨marked, ?_, hn, fin hb hg fun x y hxy => hc.2 x y ((ord.ok _ _).mem_iff.mpr hxy)⟩
        refine Conv.succ zero ((stop (pass := pass + 1)).congr fun n => ?_)
        rw [e0, hc.1]
      · obtain ⟨M, h1, h2⟩ := ih (l := some marked.length) (pass := pass + 1)
          (marked := (ord.perm [lbl, pass] m).foldl (markStep ord lbl pass) marked)
          (by have := hpre.length_le; omega) (fold_nodup hn) (fun x hx => hpre.subset (hb x hx))
          (by
            intro x hx
            rcases fold_sub x hx with h | h
            · exact hs x h
            · exact List.mem_append_right _ (((ord.ok _ _).map _).mem_iff.mp h))
          (fold_sound (fun p hp => (ord.ok _ _).mem_iff.mp hp) hg)
          (by intro e; injection e with e; exact absurd e.symm hle)
        exact ⟨M, Conv.succ zero (h1.congr e0), h2⟩

theorem mark_conv {m : Map (List Bytes)} {base : List Bytes} (hb : base.Nodup) :
    ∃ M, Conv (fun n => markLoop ord lbl m n none 0 base) (.ok M) ∧ M.Nodup ∧ (∀ x, x ∈ M ↔ Grounded m base x) :=
  mark_loop _ (Nat.le_refl _) hb (fun _ h => h) (fun _ h => List.mem_append_left _ h) (fun _ h => .base h) (by intro h; cases h)
end

/-! ### Marked rules are those without a bad descendant -/

/-- Every chain of leftmost references from the name ends. -/
inductive DGrammar.Ends (g : DGrammar) : Bytes → Prop where
  | mk {x r} : g.lookup x = some r → (∀ y ∈ r.rhs.lefts, g.Ends y) → g.Ends x

theorem DGrammar.Leads.trans {g : DGrammar} {x y z} (h : g.Leads x y) (h' : g.Leads y z) : g.Leads x z := by
  induction h with
  | refl => exact h'
  | step h _ ih => exact .step h (ih h')

theorem DGrammar.Ends.inv {g : DGrammar} {x} (h : g.Ends x) : (∃ r, g.lookup x = some r) ∧ ∀ y, g.Left x y → g.Ends y := by
  cases h with
  | mk hr h =>
    refine ⟨⟨_, hr⟩, ?_⟩
    rintro y ⟨r', hr', hy⟩
    cases hr.symm.trans hr'
    exact h y hy

theorem DGrammar.Ends.leads {g : DGrammar} {x y} (h : g.Ends x) (h' : g.Leads x y) : g.Ends y := by
  induction h' with
  | refl => exact h
  | step hl _ ih => exact ih (h.inv.2 _ hl)

theorem DGrammar.Ends.acyclic {g : DGrammar} {x} (h : g.Ends x) : ¬ ∃ z, g.Left x z ∧ g.Leads z x := by
  induction h with
  | @mk x r hr h ih =>
    rintro ⟨z, hz, hl⟩
    obtain ⟨r', hr', hy⟩ := id hz
    cases hr.symm.trans hr'
    refine ih z hy ?_
    cases hl with
    | refl => exact ⟨_, hz, .refl _⟩
    | step h1 h2 => exact ⟨_, h1, h2.trans (.step hz (.refl _))⟩

theorem DGrammar.Ends.not_flagged {g : DGrammar} {x} (h : g.Ends x) : ¬ g.Flagged x := by
  rintro ⟨_, y, hy, hb⟩
  have := h.leads hy
  rcases hb with hb | hb
  · obtain ⟨r, hr⟩ := this.inv.1
    rw [hb] at hr; cases hr
  · exact this.acyclic hb

open Classical in
/-- The number of declared names a name leads to. -/
noncomputable def DGrammar.reach (g : DGrammar) (x : Bytes) : Nat := ((g.map (·.name)).filter fun n => decide (g.Leads x n)).length

theorem DGrammar.reach_lt {g : DGrammar} {x y r} (hr : g.lookup x = some r) (h : g.Left x y) (hn : ¬ g.Leads y x) : g.reach y < g.reach x := by
  classical
  unfold DGrammar.reach
  have hx := lookup_name hr
  have mono : ∀ l : List Bytes, (l.filter fun n => decide (g.Leads y n)).length ≤ (l.filter fun n => decide (g.Leads x n)).length := by
    intro l
    induction l with
    | nil => simp
    | cons a l ih =>
      by_cases h1 : g.Leads y a
      · have h2 : g.Leads x a := .step h h1
        simp [h1, h2]; omega
      · by_cases h2 : g.Leads x a
        · simp [h1, h2]; omega
        · simp [h1, h2]; omega
  have : ∀ l : List Bytes, x ∈ l → (l.filter fun n => decide (g.Leads y n)).length < (l.filter fun n => decide (g.Leads x n)).length := by
    intro l
    induction l with
    | nil => simp
    | cons a l ih =>
      intro hm
      rcases List.mem_cons.mp hm with rfl | hm
      · have h2 : g.Leads x x := .refl _
        have := mono l
        simp [hn, h2]; omega
      · have := ih hm
        by_cases h1 : g.Leads y a
        · have h2 : g.Leads x a := .step h h1
          simp [h1, h2]; omega
        · by_cases h2 : g.Leads x a
          · simp [h1, h2]; omega
          · simp [h1, h2]; omega
  exact this _ (List.mem_map.mpr ⟨r, hx.1, hx.2⟩)

theorem DGrammar.ends_of {g : DGrammar} : ∀ (d : Nat) {x : Bytes}, g.reach x ≤ d → (∃ r, g.lookup x = some r) → ¬ g.Flagged x → g.Ends x := by
  have key : ∀ {x r y}, g.lookup x = some r → ¬ g.Flagged x → y ∈ r.rhs.lefts → (∃ r, g.lookup y = some r) ∧ ¬ g.Flagged y ∧ g.reach y < g.reach x := by
    intro x r y hr hf hy
    have hl : g.Left x y := ⟨r, hr, hy⟩
    have hlx : ∀ z, g.Leads x z → ¬ g.Bad z := fun z hz hb => hf ⟨⟨r, hr⟩, z, hz, hb⟩
    refine ⟨?_, ?_, ?_⟩
    · cases h : g.lookup y with
      | some r => exact ⟨r, rfl⟩
      | none => exact absurd (Or.inl h) (hlx y (.step hl (.refl _)))
    · rintro ⟨_, z, hz, hb⟩
      exact hlx z (.step hl hz) hb
    · refine DGrammar.reach_lt hr hl fun h => ?_
      exact hlx x (.refl _) (Or.inr ⟨y, hl, h⟩)
  intro d
  induction d with
  | zero =>
    rintro x hd ⟨r, hr⟩ hf
    refine .mk hr fun y hy => ?_
    have := (key hr hf hy).2.2
    omega
  | succ d ih =>
    rintro x hd ⟨r, hr⟩ hf
    refine .mk hr fun y hy => ?_
    obtain ⟨h1, h2, h3⟩ := key hr hf hy
    exact ih (by omega) h1 h2

theorem DGrammar.ends_iff {g : DGrammar} {x : Bytes} (h : ∃ r, g.lookup x = some r) : g.Ends x ↔ ¬ g.Flagged x :=
  ⟨fun h => h.not_flagged, DGrammar.ends_of _ (Nat.le_refl _) h⟩

mutual
theorem DRhs.lefts_sub : ∀ {r : DRhs} {x : Bytes}, x ∈ r.lefts → x ∈ r.refs
  | .atom w a, x, h => by unfold DRhs.lefts at h; unfold DRhs.refs; exact DAtom.lefts_sub h
  | .chain .seq w a as, x, h => by unfold DRhs.lefts at h; unfold DRhs.refs; exact List.mem_append_left _ (DAtom.lefts_sub h)
  | .chain .choice w a as, x, h => by
    unfold DRhs.lefts at h; unfold DRhs.refs
    rcases List.mem_append.mp h with h | h
    · exact List.mem_append_left _ (DAtom.lefts_sub h)
    · exact List.mem_append_right _ (DAtoms.lefts_sub h)
theorem DAtoms.lefts_sub : ∀ {r : DAtoms} {x : Bytes}, x ∈ r.lefts → x ∈ r.refs
  | .one w a, x, h => by unfold DAtoms.lefts at h; cases h
  | .cons w a as, x, h => by
    unfold DAtoms.lefts at h; unfold DAtoms.refs
    rcases List.mem_append.mp h with h | h
    · exact List.mem_append_left _ (DAtom.lefts_sub h)
    · exact List.mem_append_right _ (DAtoms.lefts_sub h)
theorem DAtom.lefts_sub : ∀ {r : DAtom} {x : Bytes}, x ∈ r.lefts → x ∈ r.refs
  | .plain n, x, h => by unfold DAtom.lefts at h; unfold DAtom.refs; exact DNuc.lefts_sub h
  | .pre o n, x, h => by unfold DAtom.lefts at h; unfold DAtom.refs; exact DNuc.lefts_sub h
  | .post .plus n w, x, h => by unfold DAtom.lefts at h; unfold DAtom.refs; exact DNuc.lefts_sub h
  | .post .star n w, x, h => by unfold DAtom.lefts at h; cases h
  | .post .opt n w, x, h => by unfold DAtom.lefts at h; cases h
theorem DNuc.lefts_sub : ∀ {r : DNuc} {x : Bytes}, x ∈ r.lefts → x ∈ r.refs
  | .mk c w, x, h => by unfold DNuc.lefts at h; unfold DNuc.refs; exact DCore.lefts_sub h
theorem DCore.lefts_sub : ∀ {r : DCore} {x : Bytes}, x ∈ r.lefts → x ∈ r.refs
  | .hook nm r, x, h => by unfold DCore.lefts at h; unfold DCore.refs; exact DRhs.lefts_sub h
  | .sub r, x, h => by unfold DCore.lefts at h; unfold DCore.refs; exact DRhs.lefts_sub h
  | .ref nm, x, h => by unfold DCore.lefts at h; unfold DCore.refs; exact h
  | .range .., x, h => by unfold DCore.lefts at h; cases h
  | .term t, x, h => by unfold DCore.lefts at h; cases h
  | .str s, x, h => by unfold DCore.lefts at h; cases h
end

theorem mem_add {l : List Bytes} {y} : y ∈ setAdd [] l ↔ y ∈ l := by rw [mem_setAdd]; simp

/-- The two marking phases together mark exactly the rules whose chains end. -/
theorem marks_iff {g : DGrammar} {m1 m2 : Map (List Bytes)} {M1 M2 : List Bytes} (hn : m1.keys.Nodup)
    (h1 : ∀ nm, m1.get nm = (g.lookup nm).map fun r => setAdd [] r.rhs.refs) (e1 : ∀ x, x ∈ M1 ↔ Grounded m1 [] x)
    (h2 : LeftTable g M1 m2) (e2 : ∀ x, x ∈ M2 ↔ Grounded m2 M1 x) (x : Bytes) : x ∈ M2 ↔ g.Ends x := by
  have f1 : ∀ x, Grounded m1 [] x → g.Ends x := by
    intro x h
    induction h with
    | base h => cases h
    | @step x l hl _ ih =>
      have := (Map.mem_iff hn).mp hl
      rw [h1] at this
      cases hr : g.lookup x with
      | none => rw [hr] at this; cases this
      | some r =>
        rw [hr] at this
        injection this with this
        exact .mk hr fun y hy => ih y (this ▸ mem_add.mpr (DRhs.lefts_sub hy))
  rw [e2]
  constructor
  · intro h
    induction h with
    | base h => exact f1 _ ((e1 _).mp h)
    | @step x l hl _ ih =>
      have := (Map.mem_iff h2.nodup).mp hl
      rw [h2.get] at this
      split at this
      · cases this
      · cases hr : g.lookup x with
        | none => rw [hr] at this; cases this
        | some r =>
          rw [hr] at this
          injection this with this
          exact .mk hr fun y hy => ih y (this ▸ mem_add.mpr hy)
  · intro h
    induction h with
    | @mk x r hr _ ih =>
      by_cases hx : x ∈ M1
      · exact .base hx
      · refine .step (l := setAdd [] r.rhs.lefts) ((Map.mem_iff h2.nodup).mpr ?_) fun y hy => ih y (mem_add.mp hy)
        rw [h2.get, if_neg hx, hr]; rfl

end PP.Gen
