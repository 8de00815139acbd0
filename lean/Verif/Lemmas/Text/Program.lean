import Verif.Lemmas.Text.Usable

/-! # Which generated files have a meaning, and which -/
namespace PP.Gen.Text
open PP.Run
variable {g : DGrammar} {ord : HashOrd} {n : Nat} {c : GeneratedCode}

theorem utf8_parameters {x : Bytes} : x ∈ reserved ↔ x ∈ parameters ∨ x = utf8Of "involved_set" := by
  simp only [reserved, parameters, List.map_cons, List.map_nil, List.mem_cons, List.not_mem_nil, or_false, or_assoc]

/-- The generated code, as far as its text is concerned. -/
structure Facts (g : DGrammar) (c : GeneratedCode) (bs : List (List Line × Nat)) : Prop where
  wf : g.WF
  nd : ¬ g.Dangling
  texts : Texts g.ctx g c.rules bs
  hooks : c.hookImports = (g.map fun r => r.rhs.hooks).flatten
  variants : ∀ v, v ∈ c.variants ↔ ∃ r ∈ g, ¬ g.Inlined r.name ∧ v = cap r.name
  lowered : (∀ r ∈ g, ∀ r' ∈ g, lower r.name = lower r'.name → r.name = r'.name) → (c.variants.map lower).Nodup
  rules : readRules (rulesFile c) = if (c.variants.map lower).Nodup ∧ ∀ v ∈ c.variants, v ∉ keywords then some c.variants else none
  prog : program (rulesFile c) (parserFile c) =
    if (c.variants.map lower).Nodup ∧ ∀ v ∈ c.variants, v ∉ keywords then meaning c.variants (itemsOf c.hookImports c.rules bs) else none

theorem mem_hooks {x : Bytes} : x ∈ (g.map fun r => r.rhs.hooks).flatten ↔ ∃ r ∈ g, x ∈ r.rhs.hooks := by
  simp [List.mem_flatten]

theorem facts (hw : g.WF) (hsm : g.text.length < 82000000) (h : generateParser ord n g.text = .ok (.code c))
    (hf : ∀ r ∈ g, r.rhs.Faithful) : ∃ bs, Facts g c bs := by
  obtain ⟨hd, hc, hv, hn⟩ := output_ok (gen_code hw hsm h)
  obtain ⟨bs, ht⟩ := texts_of (g.ctx_named hw) (ctx_names hw) hc hw hf
  have hh := codes_hooks hc
  have hvar : ∀ v, v ∈ c.variants ↔ ∃ r ∈ g, ¬ g.Inlined r.name ∧ v = cap r.name := by
    intro v
    rw [hv]
    unfold variantsOf
    constructor
    · intro hm
      obtain ⟨x, hx, rfl⟩ := List.mem_map.mp hm
      obtain ⟨h1, h2⟩ := List.mem_filter.mp hx
      obtain ⟨r, hr, rfl⟩ := (symbols_mem g).mp h1
      refine ⟨r, hr, fun hi => ?_, rfl⟩
      rw [(symbols_inline g).mpr hi] at h2; simp at h2
    · rintro ⟨r, hr, hi, rfl⟩
      refine List.mem_map.mpr ⟨r.name, List.mem_filter.mpr ⟨(symbols_mem g).mpr ⟨r, hr, rfl⟩, ?_⟩, rfl⟩
      have : ¬ g.symbols.isInline r.name = true := fun h => hi ((symbols_inline g).mp h)
      simpa using this
  have hid : ∀ v ∈ c.variants, IsIdent v := fun v hv => by
    obtain ⟨r, hr, _, rfl⟩ := (hvar v).mp hv
    exact name_ident (name_cap (hw r hr).1)
  refine ⟨bs, hw, hd, ht, hh, hvar, fun hinj => ?_, rules_read hid hn, ?_⟩
  · rw [hv]
    unfold variantsOf
    rw [List.map_map]
    refine List.pairwise_map.mpr (((symbols_names_sorted g).nodup.filter _).imp_of_mem ?_)
    intro a b ha hb hab e
    obtain ⟨r, hr, rfl⟩ := (symbols_mem g).mp (List.mem_filter.mp ha).1
    obtain ⟨r', hr', rfl⟩ := (symbols_mem g).mp (List.mem_filter.mp hb).1
    simp only [Function.comp, lower_cap] at e
    exact hab (hinj r hr r' hr' e)
  · unfold program
    rw [rules_read hid hn, parser_read ht.codes ?_]
    · split <;> rfl
    · intro v hv
      rw [hh] at hv
      obtain ⟨r, hr, hv⟩ := mem_hooks.mp hv
      exact name_ident ((rhs_names (hw r hr).2.2.1).2 v hv)

variable {bs : List (List Line × Nat)}

/-- The names of the generated files. -/
def namesOf (g : DGrammar) (c : GeneratedCode) : Names := ⟨c.variants, c.hookImports, g.map fun r => lower r.name⟩

theorem Facts.noCore (F : Facts g c bs) : (namesOf g c).NoCore := by
  intro x hx
  rcases List.mem_append.mp hx with hx | hx
  · obtain ⟨r, hr, rfl⟩ := List.mem_map.mp hx
    exact name_lower (F.wf r hr).1
  · have hx : x ∈ c.hookImports := hx
    rw [F.hooks] at hx
    obtain ⟨r, hr, hv⟩ := mem_hooks.mp hx
    exact (rhs_names (F.wf r hr).2.2.1).2 x hv

theorem Facts.meaning (F : Facts g c bs) : meaning c.variants (itemsOf c.hookImports c.rules bs) =
    if (c.hookImports ++ g.map fun r => lower r.name).Nodup ∧ ∀ x ∈ c.hookImports ++ g.map fun r => lower r.name, x ∉ keywords then
      ((c.rules.zip bs).map funOf).mapM fun f => (bodyMeaning (namesOf g c) .init f.lets f.tail).map fun e => (f.name, e)
    else none := by
  unfold Text.meaning namesOf
  have e : ((c.rules.zip bs).map funOf).map Fun.name = g.map fun r => lower r.name := by
    rw [← F.texts.fns (hooks := []), funs_items]
  simp only [hooks_items, counts_items, funs_items, true_and, e]

theorem lower_of_cap {a b : Bytes} (h : cap a = cap b) : lower a = lower b := by rw [← lower_cap, h, lower_cap]

theorem texts_good {c : Ctx} {rs ks bs} (h : Texts c rs ks bs) : (∀ b ∈ bs, ∃ r ∈ rs, Good c r.rhs.refs r.rhs.hooks b.1) ∧
    ∀ r ∈ rs, ∃ k b, (k, b) ∈ ks.zip bs ∧ Good c r.rhs.refs r.rhs.hooks b.1 := by
  induction h with
  | nil => simp
  | @cons r k ls i e rs ks bs _ h _ _ _ _ ih =>
    refine ⟨fun b hb => ?_, fun r' hr => ?_⟩
    · rcases List.mem_cons.mp hb with rfl | hb
      · exact ⟨r, by simp, h⟩
      · obtain ⟨r', h1, h2⟩ := ih.1 b hb
        exact ⟨r', by simp [h1], h2⟩
    · rcases List.mem_cons.mp hr with rfl | hr
      · exact ⟨k, (ls, i), by simp, h⟩
      · obtain ⟨k', b, h1, h2⟩ := ih.2 r' hr
        exact ⟨k', b, by simp [h1], h2⟩

theorem names_inj (h : g.Pairwise fun r r' => lowered r.name ≠ lowered r'.name) :
    ∀ r ∈ g, ∀ r' ∈ g, lower r.name = lower r'.name → r.name = r'.name := by
  induction g with
  | nil => simp
  | cons a g ih =>
    obtain ⟨h1, h2⟩ := List.pairwise_cons.mp h
    intro r hr r' hr' e
    rcases List.mem_cons.mp hr with rfl | hm
    · rcases List.mem_cons.mp hr' with rfl | hm'
      · rfl
      · exact (h1 r' hm' (by rw [← lower_spec, ← lower_spec, e])).elim
    · rcases List.mem_cons.mp hr' with rfl | hm'
      · exact (h1 r hm (by rw [← lower_spec, ← lower_spec, e])).elim
      · exact ih h2 r hm r' hm' e

theorem Usable.inj (hu : g.Usable) : ∀ r ∈ g, ∀ r' ∈ g, lower r.name = lower r'.name → r.name = r'.name := by
  exact names_inj hu.rules

theorem Usable.line (F : Facts g c bs) (hu : g.Usable) (hn : g.NoSetName) {r : DRule} (hr : r ∈ g) {l : Line}
    (h : Src g.ctx r.rhs.refs r.rhs.hooks l) : LineIn (namesOf g c) l := by
  have hnm := rhs_names (F.wf r hr).2.2.1
  have free : ∀ z ∈ r.rhs.refs, Free (lower z) := fun z hz => by
    refine name_free (name_lower (hnm.1 z hz)) fun hm => ?_
    rcases utf8_parameters.mp hm with hm | hm
    · exact hu.refParams r hr z hz (by rwa [← lower_spec])
    · exact (hn r hr).2 z hz (by rwa [← lower_spec])
  have call : ∀ z ∈ r.rhs.refs, lower z ∈ (namesOf g c).fns → (namesOf g c).Callable (lower z) := by
    refine fun z hz hm => ⟨free z hz, hm, fun hk => ?_⟩
    have hk : lower z ∈ c.hookImports := hk
    rw [F.hooks] at hk
    obtain ⟨r1, hr1, h1⟩ := mem_hooks.mp hk
    obtain ⟨r2, hr2, h2⟩ := List.mem_map.mp hm
    exact hu.hookRules r1 hr1 _ h1 r2 hr2 (by rw [← lower_spec, h2])
  have var : ∀ z ∈ r.rhs.refs, ¬ g.Inlined z → cap z ∈ (namesOf g c).variants ∧ (namesOf g c).Callable (lower z) := by
    intro z hz hi
    rcases hu.declared r hr z hz with h | ⟨r', hr', h1, h2⟩
    · exact (hi h).elim
    · rw [← cap_spec, ← cap_spec] at h2
      refine ⟨(F.variants _).mpr ⟨r', hr', h1, h2.symm⟩, call z hz ?_⟩
      exact List.mem_map.mpr ⟨r', hr', lower_of_cap h2⟩
  have lr : ∀ nm inv, g.ctx.lr nm = some inv → g.LeftRecursive nm ∧ ∀ x ∈ inv, g.LeftRecursive x ∧ g.Leads nm x := by
    intro nm inv hi
    by_cases hf : g.Flagged nm
    · obtain ⟨s, hs, _, hm⟩ := g.ctx_flagged hf
      rw [hs] at hi
      injection hi with hi
      subst hi
      exact ⟨(flagged_iff F.nd).mp hf, fun x hx => ⟨(flagged_iff F.nd).mp ((hm x).mp hx).1, ((hm x).mp hx).2⟩⟩
    · rw [g.ctx_not hf] at hi; cases hi
  cases l with
  | hooked i nm j =>
    refine ⟨name_free (hnm.2 nm h) fun hm => ?_, ?_, fun hm => ?_⟩
    · rcases utf8_parameters.mp hm with hm | hm
      · exact hu.hookParams r hr nm h hm
      · exact (hn r hr).1 (hm ▸ h)
    · show nm ∈ c.hookImports
      rw [F.hooks]; exact mem_hooks.mpr ⟨r, hr, h⟩
    · obtain ⟨r2, hr2, h2⟩ := List.mem_map.mp hm
      exact hu.hookRules r hr _ h r2 hr2 (by rw [← lower_spec, h2])
  | varName i v f =>
    obtain ⟨nm, h1, h2, h3, rfl, rfl⟩ := h
    refine var nm h1 fun hi => ?_
    have : g.ctx.inl nm = true := (symbols_inline g).mpr hi
    rw [h3] at this; cases this
  | varNameLR i v f =>
    obtain ⟨nm, h1, inv, h2, rfl, rfl⟩ := h
    exact var nm h1 (hu.involved r hr nm h1 nm (lr nm inv h2).1 (.refl _))
  | involvedSet vs =>
    obtain ⟨nm, h1, inv, h2, rfl⟩ := h
    intro v hv
    obtain ⟨x, hx, rfl⟩ := List.mem_map.mp (mem_sortNames.mp hv)
    obtain ⟨h3, h4⟩ := (lr nm inv h2).2 x hx
    obtain ⟨r', hr', rfl⟩ := leftRecursive_declared h3
    exact (F.variants _).mpr ⟨r', hr', hu.involved r hr nm h1 _ h3 h4, rfl⟩
  | inlined i f =>
    obtain ⟨nm, h1, h2, h3, rfl⟩ := h
    obtain ⟨r', hr', e, _⟩ : g.Inlined nm := (symbols_inline g).mp h3
    exact call nm h1 (List.mem_map.mpr ⟨r', hr', by rw [e]⟩)
  | matchRange i a b => exact h
  | stringTerminal => trivial
  | stringTerminalOptAscii => trivial
  | terminal => trivial
  | unary => trivial
  | binary => trivial
  | exec => trivial

theorem nodup_names : (g.map fun r => lower r.name).Nodup ↔ g.Pairwise fun r r' => lowered r.name ≠ lowered r'.name := by
  have : (fun r r' : DRule => lowered r.name ≠ lowered r'.name) = fun r r' => lower r.name ≠ lower r'.name := by
    funext r r'; simp only [lower_spec]
  rw [this]
  exact List.pairwise_map

theorem Usable.enum (F : Facts g c bs) (hu : g.Usable) : (c.variants.map lower).Nodup ∧ ∀ v ∈ c.variants, v ∉ keywords := by
  refine ⟨F.lowered (Usable.inj hu), fun v hv => ?_⟩
  obtain ⟨r, hr, _, rfl⟩ := (F.variants v).mp hv
  exact cap_keyword (F.wf r hr).1 (by rw [lower_spec]; exact hu.ruleWords r hr)

theorem Usable.program (F : Facts g c bs) (hu : g.Usable) (hn : g.NoSetName) :
    ∃ P, program (rulesFile c) (parserFile c) = some P ∧ Defs g.ctx.refs g P := by
  have c1 := Usable.enum F hu
  have c2 : (c.hookImports ++ g.map fun r => lower r.name).Nodup ∧ ∀ x ∈ c.hookImports ++ g.map fun r => lower r.name, x ∉ keywords := by
    rw [F.hooks]
    refine ⟨List.nodup_append.mpr ⟨hu.hooks, nodup_names.mpr hu.rules, fun a ha b hb e => ?_⟩, fun x hx => ?_⟩
    · obtain ⟨r, hr, h1⟩ := mem_hooks.mp ha
      obtain ⟨r', hr', rfl⟩ := List.mem_map.mp hb
      exact hu.hookRules r hr a h1 r' hr' (by rw [← lower_spec]; exact e)
    · rcases List.mem_append.mp hx with hx | hx
      · obtain ⟨r, hr, h1⟩ := mem_hooks.mp hx
        exact hu.hookWords r hr x h1
      · obtain ⟨r', hr', rfl⟩ := List.mem_map.mp hx
        rw [lower_spec]
        exact hu.ruleWords r' hr'
  rw [F.prog, if_pos c1, F.meaning, if_pos c2]
  refine F.texts.defs F.noCore fun b hb l hl => ?_
  obtain ⟨r, hr, hg⟩ := (texts_good F.texts).1 b hb
  exact Usable.line F hu hn hr (hg.src l hl)

/-- The closures that the files define are those the statements build. -/
theorem Texts.exec {c : Ctx} {rs ks bs P} (ht : Texts c rs ks bs) : Defs c.refs rs P →
    (∀ d ∈ P, ∃ k ∈ ks, k.name = d.1 ∧ execLines .empty k.lines = some d.2) ∧ ∀ k ∈ ks, ∃ d ∈ P, d.1 = k.name := by
  induction ht generalizing P with
  | nil => intro hd; cases hd; simp
  | @cons r k ls i e rs ks bs a1 a2 a3 a4 a5 _ ih =>
    intro hd
    cases hd with
    | @cons _ e' _ P b1 b2 =>
      rw [a5] at b1
      injection b1 with b1
      subst b1
      obtain ⟨i1, i2⟩ := ih b2
      constructor
      · intro d hd
        rcases List.mem_cons.mp hd with rfl | hd
        · exact ⟨k, by simp, a3, by rw [a1.lines, a4]⟩
        · obtain ⟨k', h1, h2⟩ := i1 d hd
          exact ⟨k', by simp [h1], h2⟩
      · intro k' hk
        rcases List.mem_cons.mp hk with rfl | hk
        · exact ⟨_, List.mem_cons_self, a3.symm⟩
        · obtain ⟨d, h1, h2⟩ := i2 k' hk
          exact ⟨d, by simp [h1], h2⟩

/-- What a file with a meaning satisfies. -/
theorem Facts.inv (F : Facts g c bs) {P} (h : program (rulesFile c) (parserFile c) = some P) :
    ((c.hookImports ++ g.map fun r => lower r.name).Nodup ∧ ∀ x ∈ c.hookImports ++ g.map fun r => lower r.name, x ∉ keywords) ∧
      ∀ r ∈ g, ∃ ls i e, Good g.ctx r.rhs.refs r.rhs.hooks ls ∧ bodyMeaning (namesOf g c) .init (ls.map lineLet) (clo i) = some e := by
  rw [F.prog] at h
  split at h
  · rw [F.meaning] at h
    split at h
    · next h1 =>
      refine ⟨h1, fun r hr => ?_⟩
      obtain ⟨k, b, h2, h3⟩ := (texts_good F.texts).2 r hr
      obtain ⟨y, hy⟩ := bodies_of h (funOf (k, b)) (List.mem_map_of_mem h2)
      obtain ⟨e, he, _⟩ := Option.map_eq_some_iff.mp hy
      exact ⟨b.1, b.2, e, h3, he⟩
    · cases h
  · cases h

theorem Facts.usable (F : Facts g c bs) {P} (h : Text.program (rulesFile c) (parserFile c) = some P) : g.Usable := by
  obtain ⟨⟨h1, h2⟩, h3⟩ := F.inv h
  rw [F.hooks] at h1 h2
  obtain ⟨n1, n2, n3⟩ := List.nodup_append.mp h1
  have hrules := nodup_names.mp n2
  have line : ∀ {ls : List Line} {i : Nat} {e}, bodyMeaning (namesOf g c) .init (ls.map lineLet) (clo i) = some e → ∀ l ∈ ls,
      LineNames (namesOf g c) l := by
    intro ls i e he l hl
    obtain ⟨L, L', hp, hs⟩ := body_line he (List.mem_map_of_mem hl)
    exact step_names F.noCore hp hs
  have hinj := names_inj hrules
  have ref : ∀ r ∈ g, ∀ z ∈ r.rhs.refs, lower z ∉ parameters ∧
      ((∃ inv, g.ctx.lr z = some inv ∧ cap z ∈ c.variants ∧ ∀ x ∈ inv, cap x ∈ c.variants) ∨
        g.ctx.lr z = none ∧ (g.ctx.inl z = true ∨ cap z ∈ c.variants)) := by
    intro r hr z hz
    obtain ⟨ls, i, e, hg, he⟩ := h3 r hr
    obtain ⟨j, hj⟩ := hg.ref z hz
    have hall : ∀ l ∈ refLines g.ctx j z, LineNames (namesOf g c) l := fun l hl => line he l (hj.subset hl)
    unfold refLines at hall
    split at hall
    · next inv hi =>
      have a2 := hall (.varNameLR j (cap z) (lower z)) (by simp)
      have a3 := hall (.involvedSet (sortNames (inv.map cap))) (by simp)
      exact ⟨a2.2.1, .inl ⟨inv, hi, a2.1, fun x hx => a3 _ (mem_sortNames.mpr (List.mem_map_of_mem hx))⟩⟩
    · next hi =>
      split at hall
      · next hl =>
        have a := hall (.inlined j (lower z)) (by simp)
        exact ⟨a.1, .inr ⟨hi, .inl hl⟩⟩
      · have a := hall (.varName j (cap z) (lower z)) (by simp)
        exact ⟨a.2.1, .inr ⟨hi, .inr a.1⟩⟩
  have ofVar : ∀ z, cap z ∈ c.variants → ∃ r' ∈ g, ¬ g.Inlined r'.name ∧ capitalised r'.name = capitalised z := by
    intro z hz
    obtain ⟨r', hr', hi, e⟩ := (F.variants _).mp hz
    exact ⟨r', hr', hi, by rw [← cap_spec, ← cap_spec, e]⟩
  refine ⟨hrules, fun r hr => ?_, n1, fun r hr x hx r' hr' e => ?_, fun r hr x hx => ?_, fun r hr x hx => ?_, fun r hr z hz => ?_,
    fun r hr z hz => ?_, fun r hr z hz y hy hl hi => ?_⟩
  · rw [← lower_spec]
    exact h2 _ (List.mem_append.mpr (.inr (List.mem_map_of_mem (f := fun r : DRule => lower r.name) hr)))
  · exact n3 x (mem_hooks.mpr ⟨r, hr, hx⟩) _ (List.mem_map_of_mem (f := fun r : DRule => lower r.name) hr') (by rw [e, lower_spec])
  · exact h2 _ (List.mem_append.mpr (.inl (mem_hooks.mpr ⟨r, hr, hx⟩)))
  · obtain ⟨ls, i, e, hg, he⟩ := h3 r hr
    obtain ⟨j, k, hj⟩ := hg.hook x hx
    exact line he _ hj
  · rw [← lower_spec]; exact (ref r hr z hz).1
  · rcases (ref r hr z hz).2 with ⟨inv, _, h5, _⟩ | ⟨_, h5 | h5⟩
    · exact .inr (ofVar z h5)
    · exact .inl ((symbols_inline g).mp h5)
    · exact .inr (ofVar z h5)
  · have hlr : g.LeftRecursive z := by
      obtain ⟨a, b, h4, h5, h6⟩ := hy
      exact ⟨a, b, hl.trans h4, h5, h6⟩
    obtain ⟨s, hs, _, hm⟩ := g.ctx_flagged ((flagged_iff F.nd).mpr hlr)
    rcases (ref r hr z hz).2 with ⟨inv, h4, _, h5⟩ | ⟨h4, _⟩
    · rw [hs] at h4
      injection h4 with h4
      subst h4
      obtain ⟨r', hr', hi', e⟩ := ofVar y (h5 y ((hm y).mpr ⟨(flagged_iff F.nd).mpr hy, hl⟩))
      obtain ⟨ry, hry, rfl⟩ := leftRecursive_declared hy
      rw [← cap_spec, ← cap_spec] at e
      exact hi' (hinj r' hr' ry hry (lower_of_cap e) ▸ hi)
    · rw [hs] at h4; cases h4

end PP.Gen.Text
