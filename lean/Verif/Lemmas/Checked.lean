import Verif.Spec.Checked
import Verif.Lemmas.Gen.Check
import Verif.Props.Text

namespace PP.Gen
open Text PP.Run

/-- Everything about the checked-in files, by computation. -/
def textCheck {R : Type} (rulesRs parserRs : Bytes) (rules : List R) (body : R → Expr R) (name : R → Bytes) (enum : List Bytes) : Bool :=
  match readRules rulesRs with
  | none => false
  | some vs =>
    decide (vs = enum) && match readParser parserRs with
      | none => false
      | some items => match meaning vs items with
        | none => false
        | some P => decide (P.map Prod.fst = rules.map name) && (P.zip rules).all fun x => agreesB name (body x.2) x.1.2

theorem textCheck_ok {R : Type} {rulesRs parserRs : Bytes} {rules : List R} {body : R → Expr R} {name : R → Bytes} {enum : List Bytes}
    (h : textCheck rulesRs parserRs rules body name enum = true) : IsTextOf rulesRs parserRs rules body name enum := by
  unfold textCheck at h
  split at h
  · cases h
  · rename_i vs hv
    simp only [Bool.and_eq_true, decide_eq_true_eq] at h
    obtain ⟨rfl, h⟩ := h
    split at h
    · cases h
    · rename_i items hi
      split at h
      · cases h
      · rename_i P hP
        simp only [Bool.and_eq_true, decide_eq_true_eq, List.all_eq_true] at h
        exact ⟨hv, P, by simp [program, hv, hi, hP], h.1, fun x hx => agreesB_ok (h.2 x hx)⟩

/-- Two closures that agree with the same one agree. -/
theorem Agrees.both {R : Type} {name : R → Bytes} : ∀ {a : Expr R} {e e' : Expr Bytes}, Agrees name a e → Agrees name a e' → Agrees id e e'
  | .andPredicate a, e, e', h, h' => by cases e <;> cases e' <;> simp only [Agrees] at * ; exact h.both h'
  | .notPredicate a, e, e', h, h' => by cases e <;> cases e' <;> simp only [Agrees] at * ; exact h.both h'
  | .oneOrMore a, e, e', h, h' => by cases e <;> cases e' <;> simp only [Agrees] at * ; exact h.both h'
  | .zeroOrMore a, e, e', h, h' => by cases e <;> cases e' <;> simp only [Agrees] at * ; exact h.both h'
  | .optional a, e, e', h, h' => by cases e <;> cases e' <;> simp only [Agrees] at * ; exact h.both h'
  | .subexpression a, e, e', h, h' => by cases e <;> cases e' <;> simp only [Agrees] at * ; exact h.both h'
  | .hooked n a, e, e', h, h' => by
    cases e <;> cases e' <;> simp only [Agrees] at *
    exact ⟨h.1.symm.trans h'.1, h.2.both h'.2⟩
  | .orderedChoice a b, e, e', h, h' => by cases e <;> cases e' <;> simp only [Agrees] at * ; exact ⟨h.1.both h'.1, h.2.both h'.2⟩
  | .sequence a b, e, e', h, h' => by cases e <;> cases e' <;> simp only [Agrees] at * ; exact ⟨h.1.both h'.1, h.2.both h'.2⟩
  | .terminal c, e, e', h, h' => by cases e <;> cases e' <;> simp_all [Agrees]
  | .stringTerminal c, e, e', h, h' => by cases e <;> cases e' <;> simp_all [Agrees]
  | .matchRange lo hi, e, e', h, h' => by
    cases e <;> cases e' <;> simp only [Agrees] at *
    exact ⟨h.1.symm.trans h'.1, h.2.symm.trans h'.2⟩
  | .varName r, e, e', h, h' => by cases e <;> cases e' <;> simp_all [Agrees]
  | .inlined r, e, e', h, h' => by cases e <;> cases e' <;> simp_all [Agrees]
  | .varNameLR inv r, e, e', h, h' => by
    cases e <;> cases e' <;> simp only [Agrees] at *
    exact ⟨h.1.symm.trans h'.1, fun x => by simp [h.2, h'.2]⟩

theorem Text.Defs.names {refs : Refs} {rs P} (h : Defs refs rs P) : P.map Prod.fst = rs.map fun r => lower r.name := by
  induction h with
  | nil => rfl
  | cons _ _ ih => simp [ih]

theorem up_to_date {R : Type} {g pieces n sortedNames enum} {rules : List R} {body : R → Expr R} {name : R → Bytes} {rulesRs parserRs : Bytes}
    (h : FileOk g pieces n sortedNames enum rules body name) (hu : usableCheck g n = true) (hn : g.NoSetName)
    (ht : IsTextOf rulesRs parserRs rules body name (enum.map utf8Of)) : UpToDate (fileOf pieces) rulesRs parserRs := by
  obtain ⟨c, hc, hl, hnames, hv⟩ := h.links
  refine ⟨c, hc, ?_⟩
  obtain ⟨N, hN⟩ := hc .id
  rw [← h.file] at hN
  obtain ⟨bs, F⟩ := facts h.wf h.length (hN N (Nat.le_refl _)) h.faithful
  have hu := usable_of h.reach hu
  obtain ⟨P, hP, hD⟩ := Usable.program F hu hn
  obtain ⟨k1, _⟩ := F.texts.exec hD
  obtain ⟨t1, P', hP', t2, t3⟩ := ht
  have hfst : P.map Prod.fst = rules.map name := by
    rw [← h.names]
    exact hD.names
  refine ⟨c.variants, P, P', by rw [F.rules, if_pos (Usable.enum F hu)], hv ▸ t1, hP, hP', hfst.trans t2.symm, fun x hx => ?_⟩
  obtain ⟨i, hi⟩ := List.getElem?_of_mem hx
  rw [List.getElem?_zip_eq_some] at hi
  obtain ⟨r, hr⟩ : ∃ r, rules[i]? = some r := by
    have := congrArg (fun l => l[i]?) hfst
    simp only [List.getElem?_map, hi.1, Option.map_some] at this
    cases hr : rules[i]? with
    | none => simp [hr] at this
    | some r => exact ⟨r, rfl⟩
  have hname : x.1.1 = name r := by
    have := congrArg (fun l => l[i]?) hfst
    simpa [hi.1, hr] using this
  have ha' := t3 (x.2, r) (List.mem_of_getElem? (i := i) (by rw [List.getElem?_zip_eq_some]; exact ⟨hi.2, hr⟩))
  obtain ⟨k, hk, hkn, hke⟩ := k1 x.1 (List.mem_of_getElem? hi.1)
  obtain ⟨k', hk', hkn', e, he, ha⟩ := hl.fn r
  have : k = k' := List.inj_on_of_nodup_map hl.nodup hk hk' (by rw [hkn, hkn', hname])
  subst this
  rw [hke] at he
  injection he with he
  subst he
  exact ha.both ha'

end PP.Gen
