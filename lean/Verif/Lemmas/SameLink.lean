import Verif.Lemmas.Same
import Verif.Lemmas.Gen.Link

/-! # Two ways of linking the same generated code make the same parser -/
namespace PP.Gen
open PP
variable {R S U : Type} {name : R → Bytes} {name' : S → Bytes}

/-- Rules of the same name. -/
def SameName (name : R → Bytes) (name' : S → Bytes) (r : R) (s : S) : Prop := name r = name' s

theorem sameName_pairing (h : ∀ r s, name r = name s → r = s) (h' : ∀ r s, name' r = name' s → r = s) : Pairing (SameName name name') :=
  ⟨fun h1 h2 => h' _ _ (Eq.trans (Eq.symm h1) h2), fun h1 h2 => h _ _ (Eq.trans h1 (Eq.symm h2))⟩

theorem agrees_same : ∀ {a : Expr R} {b : Expr S} {e : Expr Bytes}, Agrees name a e → Agrees name' b e → a.Same (SameName name name') b := by
  intro a
  induction a with
  | andPredicate _ ih | notPredicate _ ih | oneOrMore _ ih | zeroOrMore _ ih | optional _ ih | subexpression _ ih =>
    intro b e h h'; cases e <;> first | exact h.elim | (cases b <;> first | exact h'.elim | (simp only [Agrees] at h'; have := ih h h'; exact this))
  | hooked _ _ ih =>
    intro b e h h'; cases e <;> first | exact h.elim | (cases b <;> first | exact h'.elim | (simp only [Agrees] at h'; have := ih h.2 h'.2; exact ⟨h.1.trans h'.1.symm, this⟩))
  | orderedChoice a b iha ihb | sequence a b iha ihb =>
    intro b e h h'; cases e <;> first | exact h.elim | (cases b <;> first | exact h'.elim | (simp only [Agrees] at h'; exact ⟨iha h.1 h'.1, ihb h.2 h'.2⟩))
  | terminal | stringTerminal | varName r | inlined r =>
    intro b e h h'; cases e <;> first | exact h.elim | (cases b <;> first | exact h'.elim | exact Eq.trans h (Eq.symm h'))
  | matchRange => intro b e h h'; cases e <;> first | exact h.elim | (cases b <;> first | exact h'.elim | exact ⟨h.1.trans h'.1.symm, h.2.trans h'.2.symm⟩)
  | varNameLR inv r =>
    intro b e h h'; cases e <;> first | exact h.elim | cases b <;> first | exact h'.elim | skip
    refine ⟨Eq.trans h.1 (Eq.symm h'.1), fun x hx => ?_, fun y hy => ?_⟩
    · obtain ⟨s, hs, e⟩ := (h'.2 _).mp ((h.2 _).mpr ⟨x, hx, rfl⟩)
      exact ⟨s, hs, e.symm⟩
    · obtain ⟨s, hs, e⟩ := (h.2 _).mp ((h'.2 _).mpr ⟨y, hy, rfl⟩)
      exact ⟨s, hs, e⟩

theorem nodup_inj {α β : Type} {f : α → β} : ∀ {l : List α}, (l.map f).Nodup → ∀ {a b : α}, a ∈ l → b ∈ l → f a = f b → a = b
  | [], _, _, _, h, _, _ => nomatch h
  | x :: l, hn, a, b, ha, hb, e => by
    simp only [List.map_cons, List.nodup_cons, List.mem_map, not_exists, not_and] at hn
    rcases List.mem_cons.mp ha with rfl | ha' <;> rcases List.mem_cons.mp hb with rfl | hb'
    · rfl
    · exact absurd e.symm (hn.1 b hb')
    · exact absurd e (hn.1 a ha')
    · exact nodup_inj hn.2 ha' hb' e

/-- Rules that link with the same code, with the same hooked calls and user state, and start rules of the same name. -/
theorem links_same {c : GeneratedCode} {P : Parser R U} {P' : Parser S U} (h : Links c P.body name) (h' : Links c P'.body name')
    (hs : name P.grammar = name' P'.grammar) (hh : P.hook = P'.hook) (hu : P.userInit = P'.userInit) :
    Pairing (SameName name name') ∧ P.Same (SameName name name') P' := by
  refine ⟨sameName_pairing h.inj h'.inj, hs, fun {r r'} hr => ?_, hh, hu⟩
  obtain ⟨k, hk, e1, e, he, ha⟩ := h.fn r
  obtain ⟨k', hk', e1', e', he', ha'⟩ := h'.fn r'
  obtain rfl := nodup_inj h.nodup hk hk' (e1.trans (Eq.trans hr e1'.symm))
  obtain rfl := Option.some.inj (he.symm.trans he')
  exact agrees_same ha ha'

end PP.Gen
