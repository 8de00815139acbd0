import Verif.Lemmas.Gen.EndToEnd

/-! # Closed grammars can be linked -/
namespace PP.Gen

/-- Rules renamed. -/
def _root_.PP.Expr.rename {R S : Type} (m : R → S) : Expr R → Expr S
  | .andPredicate e => .andPredicate (e.rename m)
  | .notPredicate e => .notPredicate (e.rename m)
  | .oneOrMore e => .oneOrMore (e.rename m)
  | .zeroOrMore e => .zeroOrMore (e.rename m)
  | .optional e => .optional (e.rename m)
  | .subexpression e => .subexpression (e.rename m)
  | .hooked h e => .hooked h (e.rename m)
  | .orderedChoice a b => .orderedChoice (a.rename m) (b.rename m)
  | .sequence a b => .sequence (a.rename m) (b.rename m)
  | .terminal c => .terminal c
  | .stringTerminal d => .stringTerminal d
  | .matchRange lo hi => .matchRange lo hi
  | .varName r => .varName (m r)
  | .inlined r => .inlined (m r)
  | .varNameLR inv r => .varNameLR (inv.map m) (m r)

/-- All rules mentioned, also in involved sets. -/
def _root_.PP.Expr.mentions {R : Type} : Expr R → List R
  | .andPredicate e | .notPredicate e | .oneOrMore e | .zeroOrMore e | .optional e | .subexpression e | .hooked _ e => e.mentions
  | .orderedChoice a b | .sequence a b => a.mentions ++ b.mentions
  | .varName r | .inlined r => [r]
  | .varNameLR inv r => r :: inv
  | _ => []

theorem rename_agrees {R : Type} {name : R → Bytes} {m : Bytes → R} : ∀ {e : Expr Bytes}, (∀ f ∈ e.mentions, name (m f) = f) →
    Agrees name (e.rename m) e := by
  intro e
  induction e with
  | andPredicate _ ih | notPredicate _ ih | oneOrMore _ ih | zeroOrMore _ ih | optional _ ih | subexpression _ ih => exact fun h => ih h
  | hooked _ _ ih => exact fun h => ⟨rfl, ih h⟩
  | orderedChoice a b iha ihb | sequence a b iha ihb =>
    exact fun h => ⟨iha fun f hf => h f (List.mem_append_left _ hf), ihb fun f hf => h f (List.mem_append_right _ hf)⟩
  | terminal | stringTerminal => intro h; rfl
  | matchRange => exact fun h => ⟨rfl, rfl⟩
  | varName r | inlined r => intro h; exact h r (by simp [Expr.mentions])
  | varNameLR inv r =>
    intro h
    refine ⟨h r (by simp [Expr.mentions]), fun x => ⟨fun hx => ⟨m x, List.mem_map_of_mem hx, h x (by simp [Expr.mentions, hx])⟩, ?_⟩⟩
    rintro ⟨s, hs, rfl⟩
    obtain ⟨y, hy, rfl⟩ := List.mem_map.mp hs
    rw [h y (by simp [Expr.mentions, hy])]; exact hy

variable {c : Refs}

/-- Where the rules mentioned in a closure come from. -/
def FromAll (c : Refs) (l : List Bytes) (e : Expr Bytes) : Prop :=
  ∀ f ∈ e.mentions, (∃ z ∈ l, lower z = f) ∨ ∃ z inv, c.leftRec z = some inv ∧ f ∈ inv

theorem FromAll.chain {o : ChainOp} {x y : Expr Bytes} {l l'} (hx : FromAll c l x) (hy : FromAll c l' y) : FromAll c (l ++ l') (o.mk x y) := by
  intro f hf
  have : f ∈ x.mentions ++ y.mentions := by cases o <;> exact hf
  rcases List.mem_append.mp this with h | h
  · rcases hx f h with ⟨z, hz, h⟩ | h
    · exact Or.inl ⟨z, List.mem_append_left _ hz, h⟩
    · exact Or.inr h
  · rcases hy f h with ⟨z, hz, h⟩ | h
    · exact Or.inl ⟨z, List.mem_append_right _ hz, h⟩
    · exact Or.inr h

mutual
theorem rhs_mentions : ∀ {r : DRhs} {e}, r.meaning written c = some e → FromAll c r.refs e
  | .atom w a, e, h => by
    unfold DRhs.meaning at h; unfold DRhs.refs
    exact atom_mentions h
  | .chain o w a as, e, h => by
    unfold DRhs.meaning at h; unfold DRhs.refs
    obtain ⟨x, h1, h2⟩ := Option.bind_eq_some_iff.mp h
    exact atoms_mentions (atom_mentions h1) h2
theorem atoms_mentions : ∀ {as : DAtoms} {l x o e}, FromAll c l x → as.meaning written c o x = some e → FromAll c (l ++ as.refs) e
  | .one w a, l, x, o, e, hx, h => by
    unfold DAtoms.meaning at h; unfold DAtoms.refs
    obtain ⟨y, h1, h2⟩ := Option.bind_eq_some_iff.mp h
    cases h2
    exact hx.chain (atom_mentions h1)
  | .cons w a as, l, x, o, e, hx, h => by
    unfold DAtoms.meaning at h; unfold DAtoms.refs
    obtain ⟨y, h1, h2⟩ := Option.bind_eq_some_iff.mp h
    rw [← List.append_assoc]
    exact atoms_mentions (hx.chain (atom_mentions h1)) h2
theorem atom_mentions : ∀ {a : DAtom} {e}, a.meaning written c = some e → FromAll c a.refs e
  | .plain n, e, h => by
    unfold DAtom.meaning at h; unfold DAtom.refs
    exact nuc_mentions h
  | .pre o n, e, h => by
    unfold DAtom.meaning at h; unfold DAtom.refs
    obtain ⟨y, h1, h2⟩ := Option.bind_eq_some_iff.mp h
    have := nuc_mentions h1
    cases h2; cases o <;> exact this
  | .post o n w, e, h => by
    unfold DAtom.meaning at h; unfold DAtom.refs
    obtain ⟨y, h1, h2⟩ := Option.bind_eq_some_iff.mp h
    have := nuc_mentions h1
    cases h2; cases o <;> exact this
theorem nuc_mentions : ∀ {a : DNuc} {e}, a.meaning written c = some e → FromAll c a.refs e
  | .mk k w, e, h => by
    unfold DNuc.meaning at h; unfold DNuc.refs
    exact core_mentions h
theorem core_mentions : ∀ {a : DCore} {e}, a.meaning written c = some e → FromAll c a.refs e
  | .range w0 w1 lo hi w2, e, h => by
    unfold DCore.meaning at h
    obtain ⟨y, h1, h2⟩ := Option.bind_eq_some_iff.mp h
    obtain ⟨z, h3, h4⟩ := Option.bind_eq_some_iff.mp h2
    cases h4
    intro f hf; cases hf
  | .hook name r, e, h => by
    unfold DCore.meaning at h; unfold DCore.refs
    obtain ⟨y, h1, h2⟩ := Option.bind_eq_some_iff.mp h
    have := rhs_mentions h1
    cases h2; exact this
  | .sub r, e, h => by
    unfold DCore.meaning at h; unfold DCore.refs
    obtain ⟨y, h1, h2⟩ := Option.bind_eq_some_iff.mp h
    have := rhs_mentions h1
    cases h2; exact this
  | .term t, e, h => by
    unfold DCore.meaning at h
    cases t <;> (cases h; intro f hf; cases hf)
  | .str s, e, h => by
    unfold DCore.meaning at h
    obtain ⟨y, h1, h2⟩ := Option.bind_eq_some_iff.mp h
    cases h2
    intro f hf; cases hf
  | .ref nm, e, h => by
    unfold DCore.meaning at h; unfold DCore.refs
    cases h
    unfold Refs.expr
    cases hl : c.leftRec nm with
    | some inv =>
      intro f hf
      rcases List.mem_cons.mp (show f ∈ lower nm :: inv from hf) with rfl | h
      · exact Or.inl ⟨nm, by simp, rfl⟩
      · exact Or.inr ⟨nm, inv, hl, h⟩
    | none =>
      cases hi : c.inline nm with
      | _ =>
        intro f hf
        have : f = lower nm := by simpa [Expr.mentions] using hf
        exact Or.inl ⟨nm, by simp, this.symm⟩
end

theorem leftRecursive_declared {g : DGrammar} {x : Bytes} (h : g.LeftRecursive x) : ∃ d ∈ g, d.name = x := by
  obtain ⟨y, z, h1, h2, _⟩ := h
  have : ∃ w, g.Left x w := by
    cases h1 with
    | refl => exact ⟨_, h2⟩
    | step h _ => exact ⟨_, h⟩
  obtain ⟨w, r, hr, _⟩ := this
  unfold DGrammar.lookup at hr
  have hm := List.mem_of_find?_eq_some hr
  have hn := List.find?_some hr
  exact ⟨r, by simpa using hm, by simpa using hn⟩

theorem links_exist {g : DGrammar} {ord : HashOrd} (hw : g.WF) (hsm : g.text.length < 82000000) {n : Nat} {c : GeneratedCode}
    (h : generateParser ord n g.text = .ok (.code c)) (hf : ∀ r ∈ g, r.rhs.Faithful) (hcl : g.Closed) :
    ∃ body : g.Fn → Expr g.Fn, Links c body Subtype.val := by
  obtain ⟨refs, h1, h2, h3⟩ := denotes_grammar hw hsm h
  have hex : ∀ r : g.Fn, ∃ (i : Nat) (d : DRule), g[i]? = some d ∧ lower d.name = r.1 := fun ⟨f, hf⟩ => by
    obtain ⟨d, hd, rfl⟩ := List.mem_map.mp hf
    obtain ⟨i, hi⟩ := List.getElem?_of_mem hd
    exact ⟨i, d, hi, rfl⟩
  have hbody : ∀ r : g.Fn, ∃ a : Expr g.Fn, ∃ k ∈ c.rules, k.name = r.1 ∧ ∃ e, execLines .empty k.lines = some e ∧ Agrees Subtype.val a e := by
    intro r
    obtain ⟨i, d, hi, hn⟩ := hex r
    obtain ⟨k, hk, kn, ke⟩ := h3 i d hi
    have hd := List.mem_of_getElem? hi
    obtain ⟨f1, ⟨e, f2⟩, _⟩ := rhs_faithful (c := refs) (hw d hd).2.2.1 (hf d hd)
    refine ⟨e.rename fun f => if h : f ∈ g.map (fun d => lower d.name) then ⟨f, h⟩ else r, k, List.mem_of_getElem? hk, by rw [kn, hn],
      e, by rw [ke, f1, f2], rename_agrees fun f hf => ?_⟩
    have : f ∈ g.map (fun d => lower d.name) := by
      rcases rhs_mentions f2 f hf with ⟨z, hz, rfl⟩ | ⟨z, inv, hz, hfi⟩
      · obtain ⟨d', hd', rfl⟩ := hcl.1 d hd z hz
        exact List.mem_map_of_mem (f := fun d : DRule => lower d.name) hd'
      · obtain ⟨y, hy, _, rfl⟩ := (h1.involved z inv hz f).mp hfi
        obtain ⟨d', hd', rfl⟩ := leftRecursive_declared hy
        exact List.mem_map_of_mem (f := fun d : DRule => lower d.name) hd'
    simp only [dif_pos this]
  choose body hb using hbody
  have hnames : c.rules.map (fun k => k.name) = g.map fun d => lower d.name := by
    refine List.ext_getElem (by simp [h2]) fun i hi hi' => ?_
    have hi : i < c.rules.length := by simpa using hi
    obtain ⟨k', h4, h5, _⟩ := h3 i _ (List.getElem?_eq_getElem (by omega))
    rw [List.getElem?_eq_getElem hi] at h4
    cases h4
    simpa using h5
  refine ⟨body, ?_, fun r s h => Subtype.ext h, fun k hk => ?_, hb⟩
  · rw [hnames]
    exact List.pairwise_map.mpr hcl.2
  obtain ⟨i, hi, rfl⟩ := List.mem_iff_getElem.mp hk
  obtain ⟨k', h4, h5, _⟩ := h3 i _ (List.getElem?_eq_getElem (by omega))
  rw [List.getElem?_eq_getElem hi] at h4
  cases h4
  exact ⟨⟨_, List.mem_map_of_mem (f := fun d : DRule => lower d.name) (List.getElem_mem (by omega : i < g.length))⟩, h5.symm⟩

theorem fn_finite (g : DGrammar) : ∀ r : g.Fn, r ∈ (List.map (fun d : DRule => lower d.name) g).attach := fun r => List.mem_attach _ r

end PP.Gen
