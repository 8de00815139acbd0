import Verif.Lemmas.Respelt
import Verif.Props.Regenerate

/-! # C83: how a grammar is written does not matter -/
namespace PP.Gen
open PP.Mini

mutual
theorem respell_faithful_rhs {m : Bytes → Bytes} : ∀ r : DRhs, (r.respell m).Faithful ↔ r.Faithful
  | .atom _ a => respell_faithful_atom a
  | .chain _ _ a as => and_congr (respell_faithful_atom a) (respell_faithful_atoms as)
theorem respell_faithful_atoms {m : Bytes → Bytes} : ∀ r : DAtoms, (r.respell m).Faithful ↔ r.Faithful
  | .one _ a => respell_faithful_atom a
  | .cons _ a as => and_congr (respell_faithful_atom a) (respell_faithful_atoms as)
theorem respell_faithful_atom {m : Bytes → Bytes} : ∀ r : DAtom, (r.respell m).Faithful ↔ r.Faithful
  | .plain n => respell_faithful_nuc n
  | .pre _ n => respell_faithful_nuc n
  | .post _ n _ => respell_faithful_nuc n
theorem respell_faithful_nuc {m : Bytes → Bytes} : ∀ r : DNuc, (r.respell m).Faithful ↔ r.Faithful
  | .mk c _ => respell_faithful_core c
theorem respell_faithful_core {m : Bytes → Bytes} : ∀ r : DCore, (r.respell m).Faithful ↔ r.Faithful
  | .range .. => Iff.rfl
  | .hook _ r => respell_faithful_rhs r
  | .sub r => respell_faithful_rhs r
  | .term _ => Iff.rfl
  | .str _ => Iff.rfl
  | .ref _ => Iff.rfl
end

theorem same_refl {α : Type} : ∀ e : Expr α, e.Same Eq e := by
  intro e
  induction e with
  | varNameLR inv r => exact ⟨rfl, fun x hx => ⟨x, hx, rfl⟩, fun x hx => ⟨x, hx, rfl⟩⟩
  | _ => simp_all [Expr.Same]

section
variable {R S U : Type} {m : Bytes → Bytes} {g g' : DGrammar} {ord ord' : HashOrd} {n n' : Nat} {c c' : GeneratedCode}
  {name : R → Bytes} {name' : S → Bytes}

/-- `r` and `s` are the functions of a rule and of the same rule written differently. -/
def Counterparts (m : Bytes → Bytes) (g : DGrammar) (name : R → Bytes) (name' : S → Bytes) (r : R) (s : S) : Prop :=
  ∃ d ∈ g, name r = lowered d.name ∧ name' s = lowered (m d.name)

theorem respelt_faithful (hm : DGrammar.Respelt m g g') (hf : ∀ r ∈ g, r.rhs.Faithful) : ∀ r ∈ g', r.rhs.Faithful := by
  intro r' hr'
  obtain ⟨r, hr, h⟩ := hm.back r' hr'
  rw [← respell_faithful_rhs (m := id), h.2.2, respell_faithful_rhs]
  exact hf r hr

theorem respelt_same {P : Parser R U} {P' : Parser S U} (hw : g.WF) (hw' : g'.WF) (hsm : g.text.length < 82000000) (hsm' : g'.text.length < 82000000)
    (h : generateParser ord n g.text = .ok (.code c)) (h' : generateParser ord' n' g'.text = .ok (.code c')) (hf : ∀ r ∈ g, r.rhs.Faithful)
    (hc : g.Closed) (hc' : g'.Closed) (hm : DGrammar.Respelt m g g') (hl : Links c P.body name) (hl' : Links c' P'.body name')
    (hs : Counterparts m g name name' P.grammar P'.grammar) (hh : P.hook = P'.hook) (hu : P.userInit = P'.userInit) :
    Pairing (Counterparts m g name name') ∧ P.Same (Counterparts m g name name') P' := by
  have hf' := respelt_faithful hm hf
  have hp := partner_pairing hc hc' hm
  have conv : ∀ {r s}, Counterparts m g name name' r s ↔ Partner m g (name r) (name' s) := fun {r s} => by
    simp only [Counterparts, Partner, ← lower_spec]
  have hpair : Pairing (Counterparts m g name name') :=
    ⟨fun h1 h2 => hl'.inj _ _ (hp.right (conv.mp h1) (conv.mp h2)), fun h1 h2 => hl.inj _ _ (hp.left (conv.mp h1) (conv.mp h2))⟩
  refine ⟨hpair, hs, fun {r s} hr => ?_, hh, hu⟩
  obtain ⟨refs, hrefs, hb⟩ := links_written hw hsm h hf hl
  obtain ⟨refs', hrefs', hb'⟩ := links_written hw' hsm' h' hf' hl'
  obtain ⟨d0, hd0, e1, e2⟩ := conv.mp hr
  obtain ⟨d, hd, e3, e, he, ha⟩ := hb r
  obtain ⟨d', hd', e4, e', he', ha'⟩ := hb' s
  obtain rfl : d = d0 := mem_unique hc hd hd0 (e3.trans e1)
  obtain ⟨r', hr', hrr⟩ := hm.there d hd
  obtain rfl : d' = r' := mem_unique hc' hd' hr' (by rw [e4, e2, hrr.1])
  have h1 := respell_meaning_rhs (m := m) (ρ := Partner m g) (refs := refs) (refs' := refs') d.rhs fun x hx => partner_refs hc hc' hm hrefs hrefs' (hc.1 d hd x hx)
  have h2 := respell_meaning_rhs (m := id) (ρ := Eq) (refs := refs') (refs' := refs') d'.rhs fun x _ => same_refl _
  rw [← hrr.2.2, he] at h1
  rw [he'] at h2
  cases e2 : (d'.rhs.respell id).meaning written refs' with
  | none => rw [e2] at h1; exact h1.elim
  | some e3 =>
    rw [e2] at h1 h2
    have k1 : e.Same (Partner m g) e' := Expr.Same.trans (fun h1 h2 => by subst h2; exact h1) h1 (Expr.Same.symm h2)
    have k2 : (P.body r).Same (fun r f => Partner m g (name r) f) e' := Expr.Same.trans (fun h1 h2 => by subst h1; exact h2) (agrees_iff ha) k1
    exact Expr.Same.trans (fun h1 h2 => conv.mpr (by subst h2; exact h1)) k2 (Expr.Same.symm (agrees_iff ha'))

variable [DecidableEq R] [DecidableEq S]

/-- C83: two grammar files with the same rules — but for white space, comments, the order of the rules, and other names `m x` for the rules
`x` — make the same parser: on every input the same truth value, end position and (but for the names) tree, or the same panic. -/
theorem C83_writing_is_invisible {P : Parser R U} {P' : Parser S U} (hw : g.WF) (hw' : g'.WF) (hsm : g.text.length < 82000000) (hsm' : g'.text.length < 82000000)
    (h : generateParser ord n g.text = .ok (.code c)) (h' : generateParser ord' n' g'.text = .ok (.code c')) (hf : ∀ r ∈ g, r.rhs.Faithful)
    (hc : g.Closed) (hc' : g'.Closed) (hm : DGrammar.Respelt m g g') (hl : Links c P.body name) (hl' : Links c' P'.body name')
    (hs : Counterparts m g name name' P.grammar P'.grammar) (hh : P.hook = P'.hook) (hu : P.userInit = P'.userInit) (src : Source) (fuel : Nat) :
    (parse P src fuel).Rel (SameResult (Counterparts m g name name')) (parse P' src fuel) := by
  obtain ⟨h1, h2⟩ := respelt_same hw hw' hsm hsm' h h' hf hc hc' hm hl hl' hs hh hu
  exact same_parse h1 h2 src fuel
end

section
variable {m : Bytes → Bytes} {g g' : DGrammar} {ord ord' : HashOrd} {n n' : Nat} {c c' : GeneratedCode}

/-- C83, executed: the crates made from two files with the same rules, the names `x` of the second replaced by `m x`, cannot be told apart by the
truth value and the end position `parse` returns, nor by whether it panics. -/
theorem C83_renamed_crates_agree (hw : g.WF) (hw' : g'.WF) (hsm : g.text.length < 82000000) (hsm' : g'.text.length < 82000000)
    (h : generateParser ord n g.text = .ok (.code c)) (h' : generateParser ord' n' g'.text = .ok (.code c')) (hf : ∀ r ∈ g, r.rhs.Faithful)
    (hc : g.Closed) (hc' : g'.Closed) (hm : DGrammar.Respelt m g g') (hr : g.Runnable) (hr' : g'.Runnable)
    (hs : ∀ r ∈ g, lowered r.name = utf8Of "grammar" → lowered (m r.name) = utf8Of "grammar") :
    ∃ Q Q', readCrate (crateFiles c) = some Q ∧ readCrate (crateFiles c') = some Q' ∧ ∀ input,
      (∀ b q, (∃ n t h, runParse Q n input = .ok (.tuple [.bool b, .int q, t]) h) ↔ ∃ n t h, runParse Q' n input = .ok (.tuple [.bool b, .int q, t]) h) ∧
      ((∃ n, runParse Q n input = .panic) ↔ ∃ n, runParse Q' n input = .panic) := by
  obtain ⟨Q, body, start, hQ, hl, hst, hC⟩ := C77_generated_crate_executed hw hsm h hf hr
  obtain ⟨Q', body', start', hQ', hl', hst', hC'⟩ := C77_generated_crate_executed hw' hsm' h' (respelt_faithful hm hf) hr'
  have hcs : Counterparts m g Subtype.val Subtype.val start start' := by
    obtain ⟨d, hd, e⟩ := List.mem_map.mp start.2
    have e' : lowered d.name = utf8Of "grammar" := by rw [← lower_spec, e, hst]
    exact ⟨d, hd, hst.trans e'.symm, hst'.trans (hs d hd e').symm⟩
  have rel := fun src fuel => C83_writing_is_invisible (P := .plain body start) (P' := .plain body' start') hw hw' hsm hsm' h h' hf hc hc' hm hl hl'
    hcs rfl rfl src fuel
  refine ⟨Q, Q', hQ, hQ', fun input => ⟨fun b q => ⟨?_, ?_⟩, ?_⟩⟩
  · rintro ⟨k, t, hp, e⟩
    obtain ⟨fuel, ⟨b1, q1, t1⟩, hx, hv⟩ := hC.sound input k _ hp e
    simp only [encResult, Val.tuple.injEq, List.cons.injEq, Val.bool.injEq, Val.int.injEq] at hv
    obtain ⟨rfl, rfl, -⟩ := hv
    have := rel ⟨input⟩ fuel
    rw [hx] at this
    cases hy : parse (.plain body' start') ⟨input⟩ fuel with
    | oof => rw [hy] at this; exact this.elim
    | panic p => rw [hy] at this; exact this.elim
    | ok y =>
      rw [hy] at this
      obtain ⟨N, hN⟩ := hC'.complete input fuel _ hy
      obtain ⟨hp', e'⟩ := hN N (Nat.le_refl _)
      obtain ⟨b2, q2, t2⟩ := y
      obtain ⟨rfl, rfl, -⟩ : b = b2 ∧ q = q2 ∧ _ := this
      exact ⟨N, _, hp', e'⟩
  · rintro ⟨k, t, hp, e⟩
    obtain ⟨fuel, ⟨b1, q1, t1⟩, hx, hv⟩ := hC'.sound input k _ hp e
    simp only [encResult, Val.tuple.injEq, List.cons.injEq, Val.bool.injEq, Val.int.injEq] at hv
    obtain ⟨rfl, rfl, -⟩ := hv
    have := rel ⟨input⟩ fuel
    rw [hx] at this
    cases hy : parse (.plain body start) ⟨input⟩ fuel with
    | oof => rw [hy] at this; exact this.elim
    | panic p => rw [hy] at this; exact this.elim
    | ok y =>
      rw [hy] at this
      obtain ⟨N, hN⟩ := hC.complete input fuel _ hy
      obtain ⟨hp', e'⟩ := hN N (Nat.le_refl _)
      obtain ⟨b2, q2, t2⟩ := y
      obtain ⟨rfl, rfl, -⟩ : b2 = b ∧ q2 = q ∧ _ := this
      exact ⟨N, _, hp', e'⟩
  · rw [hC.panics, hC'.panics]
    constructor
    · rintro ⟨fuel, p, hx⟩
      have := rel ⟨input⟩ fuel
      rw [hx] at this
      cases hy : parse (.plain body' start') ⟨input⟩ fuel with
      | oof => rw [hy] at this; exact this.elim
      | panic p => exact ⟨fuel, p, hy⟩
      | ok y => rw [hy] at this; exact this.elim
    · rintro ⟨fuel, p, hx⟩
      have := rel ⟨input⟩ fuel
      rw [hx] at this
      cases hy : parse (.plain body start) ⟨input⟩ fuel with
      | oof => rw [hy] at this; exact this.elim
      | panic p => exact ⟨fuel, p, hy⟩
      | ok y => rw [hy] at this; exact this.elim

/-- Strictly sorted lists with the same elements are equal. -/
theorem strictlySorted_ext : ∀ {xs ys : List Bytes}, StrictlySorted xs → StrictlySorted ys → (∀ x, x ∈ xs ↔ x ∈ ys) → xs = ys
  | [], [], _, _, _ => rfl
  | [], y :: _, _, _, h => absurd ((h y).mpr (List.mem_cons_self ..)) (by simp)
  | x :: _, [], _, _, h => absurd ((h x).mp (List.mem_cons_self ..)) (by simp)
  | x :: xs, y :: ys, hx, hy, h => by
    have hx' := List.pairwise_cons.mp hx
    have hy' := List.pairwise_cons.mp hy
    have e : x = y := by
      rcases List.mem_cons.mp ((h x).mp (List.mem_cons_self ..)) with e | h1
      · exact e
      · rcases List.mem_cons.mp ((h y).mpr (List.mem_cons_self ..)) with e | h2
        · exact e.symm
        · exact absurd (List.lt_trans (hx'.1 y h2) (hy'.1 x h1)) (List.lt_irrefl _)
    subst e
    rw [strictlySorted_ext hx'.2 hy'.2 fun z => ⟨fun hz => ?_, fun hz => ?_⟩]
    · rcases List.mem_cons.mp ((h z).mp (List.mem_cons_of_mem _ hz)) with e | h1
      · exact absurd (e ▸ hx'.1 z hz) (List.lt_irrefl _)
      · exact h1
    · rcases List.mem_cons.mp ((h z).mpr (List.mem_cons_of_mem _ hz)) with e | h1
      · exact absurd (e ▸ hy'.1 z hz) (List.lt_irrefl _)
      · exact h1

theorem respelt_variants (hw : g.WF) (hw' : g'.WF) (hsm : g.text.length < 82000000) (hsm' : g'.text.length < 82000000)
    (h : generateParser ord n g.text = .ok (.code c)) (h' : generateParser ord' n' g'.text = .ok (.code c'))
    (hc : g.Closed) (hc' : g'.Closed) (hm : DGrammar.Respelt id g g') : c.variants = c'.variants := by
  obtain ⟨-, xs, h1, h2, h3⟩ := C30_rules_enum hw hsm h
  obtain ⟨-, ys, k1, k2, k3⟩ := C30_rules_enum hw' hsm' h'
  rw [h3, k3, strictlySorted_ext h1 k1 fun x => ?_]
  rw [h2, k2]
  constructor
  · rintro ⟨⟨r, hr, rfl⟩, hi⟩
    obtain ⟨r', hr', e⟩ := hm.there r hr
    exact ⟨⟨r', hr', e.1⟩, fun h => hi ((inlined_iff hc hc' hm ⟨r, hr, rfl⟩).mp h)⟩
  · rintro ⟨⟨r', hr', rfl⟩, hi⟩
    obtain ⟨r, hr, e⟩ := hm.back r' hr'
    exact ⟨⟨r, hr, e.1.symm⟩, fun h => hi ((inlined_iff hc hc' hm ⟨r, hr, e.1.symm⟩).mpr h)⟩

/-- C83, executed: the crates made from two files that differ only in white space, comments and the order of the rules cannot be told apart. -/
theorem C83_layout_and_order_are_invisible (hw : g.WF) (hw' : g'.WF) (hsm : g.text.length < 82000000) (hsm' : g'.text.length < 82000000)
    (h : generateParser ord n g.text = .ok (.code c)) (h' : generateParser ord' n' g'.text = .ok (.code c')) (hf : ∀ r ∈ g, r.rhs.Faithful)
    (hc : g.Closed) (hc' : g'.Closed) (hm : DGrammar.Respelt id g g') (hr : g.Runnable) (hr' : g'.Runnable) :
    ∃ Q Q', readCrate (crateFiles c) = some Q ∧ readCrate (crateFiles c') = some Q' ∧ SameRuns Q Q' := by
  obtain ⟨Q, body, start, hQ, hl, hst, hC⟩ := C77_generated_crate_executed hw hsm h hf hr
  obtain ⟨Q', body', start', hQ', hl', hst', hC'⟩ := C77_generated_crate_executed hw' hsm' h' (respelt_faithful hm hf) hr'
  have hcs : Counterparts id g Subtype.val Subtype.val start start' := by
    obtain ⟨d, hd, e⟩ := List.mem_map.mp start.2
    have e' : lowered d.name = utf8Of "grammar" := by rw [← lower_spec, e, hst]
    exact ⟨d, hd, hst.trans e'.symm, hst'.trans e'.symm⟩
  obtain ⟨h1, h2⟩ := respelt_same (P := .plain body start) (P' := .plain body' start') hw hw' hsm hsm' h h' hf hc hc' hm hl hl' hcs rfl rfl
  refine ⟨Q, Q', hQ, hQ', same_runs (computes_same h1 h2 (fun r s e => ?_) hC) hC'⟩
  obtain ⟨d, -, e1, e2⟩ := e
  rw [e1, e2, respelt_variants hw hw' hsm hsm' h h' hc hc' hm, id]
end

section
variable {g g' : DGrammar} {ord ord' : HashOrd} {n : Nat} {c : GeneratedCode}

theorem respelt_hooks {m : Bytes → Bytes} {r r' : DRule} (h : r.Respelt m r') : r'.rhs.hooks = r.rhs.hooks := by
  rw [← respell_hooks_rhs (m := id), h.2.2, respell_hooks_rhs]

theorem respelt_inlined (hm : DGrammar.Respelt id g g') (x : Bytes) : g'.Inlined x ↔ g.Inlined x := by
  constructor
  · rintro ⟨r', hr', e, hi⟩
    obtain ⟨r, hr, h⟩ := hm.back r' hr'
    exact ⟨r, hr, h.1.symm.trans e, h.2.1.symm.trans hi⟩
  · rintro ⟨r, hr, e, hi⟩
    obtain ⟨r', hr', h⟩ := hm.there r hr
    exact ⟨r', hr', h.1.trans e, h.2.1.trans hi⟩

/-- No two rules of the same name: then no two functions of the same name, if that is so of the other file. -/
theorem respelt_closed (hc : g.Closed) (hm : DGrammar.Respelt id g g') (hd : g'.Pairwise fun r r' => r.name ≠ r'.name) : g'.Closed := by
  refine ⟨fun r' hr' z hz => ?_, ?_⟩
  · obtain ⟨r, hr, h⟩ := hm.back r' hr'
    rw [h.refs, List.map_id] at hz
    obtain ⟨s, hs, rfl⟩ := hc.1 r hr z hz
    obtain ⟨s', hs', k⟩ := hm.there s hs
    exact ⟨s', hs', k.1⟩
  · refine (List.Pairwise.and_mem.mp hd).imp fun {r' s'} ⟨hr', hs', hne⟩ e => hne ?_
    obtain ⟨r, hr, h⟩ := hm.back r' hr'
    obtain ⟨s, hs, k⟩ := hm.back s' hs'
    rw [h.1, k.1] at e ⊢
    rw [mem_unique hc hr hs e]

/-- The rule the other file has for a rule: its name, references and hooks are the same. -/
theorem respelt_names (hm : DGrammar.Respelt id g g') : ∀ r' ∈ g', ∃ r ∈ g, r'.name = r.name ∧ r'.rhs.refs = r.rhs.refs ∧ r'.rhs.hooks = r.rhs.hooks :=
  fun r' hr' =>
    let ⟨r, h1, h2⟩ := hm.back r' hr'
    ⟨r, h1, h2.1, by rw [h2.refs, List.map_id], respelt_hooks h2⟩

theorem pairwise_forall {α : Type} {P : α → α → Prop} (hs : ∀ {a b}, P a b → P b a) : ∀ {l : List α}, l.Pairwise P → ∀ {a b}, a ∈ l → b ∈ l → a ≠ b → P a b
  | x :: l, h, a, b, ha, hb, hne => by
    obtain ⟨h1, h2⟩ := List.pairwise_cons.mp h
    rcases List.mem_cons.mp ha with ea | ka <;> rcases List.mem_cons.mp hb with eb | kb
    · exact absurd (ea.trans eb.symm) hne
    · rw [ea]; exact h1 _ kb
    · rw [eb]; exact hs (h1 _ ka)
    · exact pairwise_forall hs h2 ka kb hne

theorem respelt_usable (hc : g.Closed) (hu : g.Usable) (hm : DGrammar.Respelt id g g') (hd : g'.Pairwise fun r r' => r.name ≠ r'.name) : g'.Usable := by
  have names := respelt_names hm
  refine ⟨?_, fun r' hr' => ?_, ?_, fun r' hr' x hx s' hs' => ?_, fun r' hr' x hx => ?_, fun r' hr' x hx => ?_, fun r' hr' z hz => ?_, fun r' hr' z hz => ?_,
    fun r' hr' z hz y hy hl => ?_⟩
  · exact (respelt_closed hc hm hd).2.imp fun h => by rwa [lower_spec, lower_spec] at h
  · obtain ⟨r, h1, h2, -⟩ := names r' hr'
    rw [h2]; exact hu.ruleWords r h1
  · obtain ⟨k1, k2⟩ := List.nodup_flatten.mp hu.hooks
    refine List.nodup_flatten.mpr ⟨fun l hl => ?_, List.pairwise_map.mpr ?_⟩
    · obtain ⟨r', hr', rfl⟩ := List.mem_map.mp hl
      obtain ⟨r, h1, -, -, h3⟩ := names r' hr'
      rw [h3]
      exact k1 _ (List.mem_map_of_mem h1)
    · refine (List.Pairwise.and_mem.mp hd).imp fun {r' s'} ⟨hr', hs', hne⟩ => ?_
      obtain ⟨r, h1, h2, -, h3⟩ := names r' hr'
      obtain ⟨s, l1, l2, -, l3⟩ := names s' hs'
      rw [h3, l3]
      exact pairwise_forall (fun h => h.symm) (List.pairwise_map.mp k2) h1 l1 fun e => hne (by rw [h2, l2, e])
  · obtain ⟨r, h1, -, -, h3⟩ := names r' hr'
    obtain ⟨s, l1, l2, -⟩ := names s' hs'
    rw [l2]; exact hu.hookRules r h1 x (h3 ▸ hx) s l1
  · obtain ⟨r, h1, -, -, h3⟩ := names r' hr'
    exact hu.hookWords r h1 x (h3 ▸ hx)
  · obtain ⟨r, h1, -, -, h3⟩ := names r' hr'
    exact hu.hookParams r h1 x (h3 ▸ hx)
  · obtain ⟨r, h1, -, h3, -⟩ := names r' hr'
    exact hu.refParams r h1 z (h3 ▸ hz)
  · obtain ⟨r, h1, -, h3, -⟩ := names r' hr'
    rcases hu.declared r h1 z (h3 ▸ hz) with h | ⟨s, hs, hi, e⟩
    · exact .inl ((respelt_inlined hm z).mpr h)
    · obtain ⟨s', hs', k⟩ := hm.there s hs
      exact .inr ⟨s', hs', by rw [k.1, respelt_inlined hm]; exact hi, by rw [k.1]; exact e⟩
  · have hc' := respelt_closed hc hm hd
    obtain ⟨r, h1, -, h3, -⟩ := names r' hr'
    obtain ⟨s, hs, rfl⟩ := hc.1 r h1 z (h3 ▸ hz)
    obtain ⟨y, rfl, k⟩ := leads_back hc hc' hm hl rfl ⟨s, hs, rfl⟩
    rw [respelt_inlined hm]
    exact hu.involved r h1 s.name (h3 ▸ hz) y ((leftRec_iff hc hc' hm (leads_there hc hc' hm k ⟨s, hs, rfl⟩).2).mp hy) k

theorem respelt_noSet (hn : g.NoSetName) (hm : DGrammar.Respelt id g g') : g'.NoSetName := fun r' hr' =>
  let ⟨r, h1, _, h3, h4⟩ := respelt_names hm r' hr'
  ⟨by rw [h4]; exact (hn r h1).1, fun z hz => (hn r h1).2 z (h3 ▸ hz)⟩

theorem respelt_start (hs : ∃ r ∈ g, ¬ g.Inlined r.name ∧ capitalised r.name = utf8Of "Grammar") (hm : DGrammar.Respelt id g g') :
    ∃ r ∈ g', ¬ g'.Inlined r.name ∧ capitalised r.name = utf8Of "Grammar" := by
  obtain ⟨s, hs, hi, e⟩ := hs
  obtain ⟨s', hs', k⟩ := hm.there s hs
  exact ⟨s', hs', by rw [k.1, respelt_inlined hm]; exact hi, by rw [k.1]; exact e⟩

theorem respelt_runnable (hc : g.Closed) (hr : g.Runnable) (hm : DGrammar.Respelt id g g') (hd : g'.Pairwise fun r r' => r.name ≠ r'.name) : g'.Runnable where
  usable := respelt_usable hc hr.usable hm hd
  noSet := respelt_noSet hr.noSet hm
  hooks r' hr' := let ⟨r, h1, _, _, h4⟩ := respelt_names hm r' hr'; h4.trans (hr.hooks r h1)
  start := respelt_start hr.start hm
  free r' hr' := let ⟨r, h1, h2, _⟩ := respelt_names hm r' hr'; by rw [h2]; exact hr.free r h1

theorem respelt_runnableWith {hs : List Bytes} (hc : g.Closed) (hr : g.RunnableWith hs) (hm : DGrammar.Respelt id g g')
    (hd : g'.Pairwise fun r r' => r.name ≠ r'.name) : g'.RunnableWith hs where
  usable := respelt_usable hc hr.usable hm hd
  noSet := respelt_noSet hr.noSet hm
  hooks r' hr' x hx := let ⟨r, h1, _, _, h4⟩ := respelt_names hm r' hr'; hr.hooks r h1 x (h4 ▸ hx)
  start := respelt_start hr.start hm
  free r' hr' := let ⟨r, h1, h2, _⟩ := respelt_names hm r' hr'; by rw [h2]; exact hr.free r h1

theorem closed_not_dangling (hc : g.Closed) : ¬ g.Dangling := by
  rintro ⟨x, y, ⟨r, hr, hy⟩, hl⟩
  obtain ⟨s, hs, rfl⟩ := hc.1 r ((lookup_mem_iff hc).mp hr).1 y (lefts_refs_rhs _ _ hy)
  rw [(lookup_mem_iff hc).mpr ⟨hs, rfl⟩] at hl
  cases hl

/-- C83: a file that can be used stays usable, and means the same, however it is written: if code is generated from it and runs, then the same rules
in any order, with any white space and any (non-empty) comments, each written once, give code too, and the two crates cannot be told apart. -/
theorem C83_rewritten_file_works (hw : g.WF) (hw' : g'.WF) (hsm : g.text.length < 82000000) (hsm' : g'.text.length < 82000000)
    (h : generateParser ord n g.text = .ok (.code c)) (hf : ∀ r ∈ g, r.rhs.Faithful) (hc : g.Closed) (hr : g.Runnable)
    (hm : DGrammar.Respelt id g g') (hd : g'.Pairwise fun r r' => r.name ≠ r'.name) (hk : ∀ r ∈ g', ∀ k ∈ r.comments, ¬ k.Panics) (ord' : HashOrd) :
    ∃ c' N, (∀ n, N ≤ n → generateParser ord' n g'.text = .ok (.code c')) ∧
      ∃ Q Q', readCrate (crateFiles c) = some Q ∧ readCrate (crateFiles c') = some Q' ∧ SameRuns Q Q' := by
  have hc' := respelt_closed hc hm hd
  obtain ⟨c', N, hN, -⟩ := round_trip hw' hsm' (closed_not_dangling hc') (respelt_faithful hm hf) hk ord'
  exact ⟨c', N, hN, C83_layout_and_order_are_invisible hw hw' hsm hsm' h (hN N (Nat.le_refl _)) hf hc hc' hm hr (respelt_runnable hc hr hm hd)⟩
/-- C83, executed, with example 11's user files: the hooked call keeps its one set of lines however the rules that call it are written. -/
theorem C83_layout_is_invisible_to_hooks (hw : g.WF) (hw' : g'.WF) (hsm : g.text.length < 82000000) (hsm' : g'.text.length < 82000000)
    (h : generateParser ord n g.text = .ok (.code c)) (hf : ∀ r ∈ g, r.rhs.Faithful) (hc : g.Closed) (hr : g.RunnableWith [utf8Of "unique_line_cache"])
    (hm : DGrammar.Respelt id g g') (hd : g'.Pairwise fun r r' => r.name ≠ r'.name) (hk : ∀ r ∈ g', ∀ k ∈ r.comments, ¬ k.Panics) (ord' : HashOrd) :
    ∃ c' N, (∀ n, N ≤ n → generateParser ord' n g'.text = .ok (.code c')) ∧
      ∃ Q Q', readCrate (crateFiles11 c) = some Q ∧ readCrate (crateFiles11 c') = some Q' ∧ SameRuns Q Q' := by
  have hc' := respelt_closed hc hm hd
  obtain ⟨c', N, hN, -⟩ := round_trip hw' hsm' (closed_not_dangling hc') (respelt_faithful hm hf) hk ord'
  have h' := hN N (Nat.le_refl _)
  obtain ⟨Q, body, start, hQ, hl, hst, hC⟩ := C79_generated_crate_executed hw hsm h hf hr
  obtain ⟨Q', body', start', hQ', hl', hst', hC'⟩ := C79_generated_crate_executed hw' hsm' h' (respelt_faithful hm hf) (respelt_runnableWith hc hr hm hd)
  have hcs : Counterparts id g Subtype.val Subtype.val start start' := by
    obtain ⟨d, hd, e⟩ := List.mem_map.mp start.2
    have e' : lowered d.name = utf8Of "grammar" := by rw [← lower_spec, e, hst]
    exact ⟨d, hd, hst.trans e'.symm, hst'.trans e'.symm⟩
  obtain ⟨h1, h2⟩ := respelt_same (P := uniqueParser body start) (P' := uniqueParser body' start') hw hw' hsm hsm' h h' hf hc hc' hm hl hl' hcs rfl rfl
  refine ⟨c', N, hN, Q, Q', hQ, hQ', same_runs (computes_same h1 h2 (fun r s e => ?_) hC) hC'⟩
  obtain ⟨d, -, e1, e2⟩ := e
  rw [e1, e2, respelt_variants hw hw' hsm hsm' h h' hc hc' hm, id]
end

/-! ### The hypotheses are met -/

/-- The sample grammar written differently: the rules in another order, other white space, no comment, and the rule `Expr` called `E`. -/
def respeltSample (E : Bytes) : DGrammar := [
  ⟨nm "Num", .inline [10, 32] [32], .atom [32] (.plain (.mk (.range [] [9] (.term (.chr 48)) (.term (.chr 57)) [32]) [10])), [], []⟩,
  ⟨E, .plain [], .chain .choice [] (.plain (.mk (.sub (.chain .seq [32] (.plain (.mk (.ref E) [32])) (.cons [10] (chrA 45)
    (.one [32] (refA "Num"))))) [32])) (.one [] (refA "Num")), [10], []⟩,
  ⟨nm "Grammar", .plain [32], .atom [32] (.plain (.mk (.ref E) [])), [], []⟩]

example : (respeltSample (nm "Expr")).text =
    bytesOf "<Num>\n Inline = [\t'0'..'9' ]\n;<Expr>=( <Expr> ,\n'-', <Num>) /<Num>;\n<Grammar> = <Expr>;" := by decide +kernel

theorem isName_sum : IsName (nm "Sum") := isName_of (c := 83) (cs := bytesOf "um") (by decide) (by decide)

theorem respeltSample_wf {E : Bytes} (hE : IsName E) : (respeltSample E).WF := by
  intro r hr
  simp only [respeltSample, List.mem_cons, List.not_mem_nil, or_false] at hr
  rcases hr with rfl | rfl | rfl
  · exact ⟨isName_num, ⟨isWs_of _ (by decide), isWs_of _ (by decide)⟩, ⟨isWs_of _ (by decide),
      ⟨⟨isWs_of _ (by decide), isWs_of _ (by decide), trivial, trivial, isWs_of _ (by decide)⟩, isWs_of _ (by decide)⟩, rfl⟩, isWs_of _ (by decide), by simp⟩
  · exact ⟨hE, isWs_of _ (by decide), ⟨isWs_of _ (by decide), ⟨⟨⟨isWs_of _ (by decide), ⟨⟨hE, isWs_of _ (by decide)⟩, rfl⟩,
      isWs_of _ (by decide), ⟨⟨trivial, isWs_of _ (by decide)⟩, rfl⟩, isWs_of _ (by decide), ⟨isName_num, isWs_of _ (by decide)⟩, rfl⟩,
      isWs_of _ (by decide)⟩, rfl⟩, isWs_of _ (by decide), ⟨isName_num, isWs_of _ (by decide)⟩, rfl⟩, isWs_of [10] (by decide), by simp⟩
  · exact ⟨isName_grammar, isWs_of _ (by decide), ⟨isWs_of _ (by decide), ⟨hE, isWs_of _ (by decide)⟩, rfl⟩, isWs_of [] (by decide), by simp⟩

/-- `Expr` is called `E`, the other names stay. -/
def exprTo (E : Bytes) (x : Bytes) : Bytes := if x = nm "Expr" then E else x

theorem sample_respelt {E : Bytes} (h1 : E ≠ nm "Grammar") (h2 : E ≠ nm "Num") : DGrammar.Respelt (exprTo E) sample (respeltSample E) := by
  have e1 : exprTo E (nm "Grammar") = nm "Grammar" := if_neg (by decide)
  have e2 : exprTo E (nm "Expr") = E := if_pos rfl
  have e3 : exprTo E (nm "Num") = nm "Num" := if_neg (by decide)
  have hG : DRule.Respelt (exprTo E) (sample[0]'(by simp [sample])) ((respeltSample E)[2]'(by simp [respeltSample])) := by
    refine ⟨e1.symm, rfl, ?_⟩
    simp [sample, respeltSample, DRhs.respell, DAtom.respell, DNuc.respell, DCore.respell, refA, e2]
  have hE : DRule.Respelt (exprTo E) (sample[1]'(by simp [sample])) ((respeltSample E)[1]'(by simp [respeltSample])) := by
    refine ⟨e2.symm, rfl, ?_⟩
    simp [sample, respeltSample, DRhs.respell, DAtoms.respell, DAtom.respell, DNuc.respell, DCore.respell, refA, chrA, e2, e3]
  have hN : DRule.Respelt (exprTo E) (sample[2]'(by simp [sample])) ((respeltSample E)[0]'(by simp [respeltSample])) := by
    refine ⟨e3.symm, rfl, ?_⟩
    simp [sample, respeltSample, DRhs.respell, DAtom.respell, DNuc.respell, DCore.respell]
  refine ⟨?_, ?_, ?_⟩
  · intro r hr
    simp only [sample, List.mem_cons, List.not_mem_nil, or_false] at hr
    rcases hr with rfl | rfl | rfl
    · exact ⟨_, List.getElem_mem _, hG⟩
    · exact ⟨_, List.getElem_mem _, hE⟩
    · exact ⟨_, List.getElem_mem _, hN⟩
  · intro r hr
    simp only [respeltSample, List.mem_cons, List.not_mem_nil, or_false] at hr
    rcases hr with rfl | rfl | rfl
    · exact ⟨_, List.getElem_mem _, hN⟩
    · exact ⟨_, List.getElem_mem _, hE⟩
    · exact ⟨_, List.getElem_mem _, hG⟩
  · intro r hr s hs
    simp only [sample, List.mem_cons, List.not_mem_nil, or_false] at hr hs
    rcases hr with rfl | rfl | rfl <;> rcases hs with rfl | rfl | rfl <;> simp only [e1, e2, e3] <;> intro h <;>
      first
        | rfl
        | exact absurd h h1
        | exact absurd h h2
        | exact absurd h.symm h1
        | exact absurd h.symm h2
        | exact h

theorem sample_respelt_id : DGrammar.Respelt id sample (respeltSample (nm "Expr")) := by
  have : exprTo (nm "Expr") = id := funext fun x => by
    unfold exprTo
    split
    · rename_i h; exact h.symm
    · rfl
  exact this ▸ sample_respelt (by decide) (by decide)

/-- The crates made from the sample grammar and from the same grammar with another layout and another order of the rules: whatever the orders of
the hash containers when they are generated, the two programs cannot be told apart. -/
example (ord ord' : HashOrd) : ∃ c c' Q Q', (∃ n, generateParser ord n sample.text = .ok (.code c)) ∧
    (∃ n, generateParser ord' n (respeltSample (nm "Expr")).text = .ok (.code c')) ∧
    readCrate (crateFiles c) = some Q ∧ readCrate (crateFiles c') = some Q' ∧ SameRuns Q Q' := by
  obtain ⟨c, N, hN, -⟩ := round_trip sample_wf sample_small sample_not_dangling (by decide +kernel) sample_comments ord
  obtain ⟨c', N', hN', -⟩ := round_trip (respeltSample_wf isName_expr) (by decide +kernel) (not_dangling_of (by decide +kernel)) (by decide +kernel)
    (fun r hr k hk => by
      simp only [respeltSample, List.mem_cons, List.not_mem_nil, or_false] at hr
      rcases hr with rfl | rfl | rfl <;> cases hk) ord'
  obtain ⟨Q, Q', h1, h2, h3⟩ := C83_layout_and_order_are_invisible sample_wf (respeltSample_wf isName_expr) sample_small (by decide +kernel)
    (hN N (Nat.le_refl _)) (hN' N' (Nat.le_refl _)) (by decide +kernel) (by unfold DGrammar.Closed; decide +kernel) (by unfold DGrammar.Closed; decide +kernel)
    sample_respelt_id sample_runnable
    (runnable_of (usable_of (n := 3) (by decide +kernel) (by decide +kernel)) (by unfold DGrammar.NoSetName; decide +kernel) (by decide +kernel)
      (by decide +kernel) (by decide +kernel))
  exact ⟨c, c', Q, Q', ⟨N, hN N (Nat.le_refl _)⟩, ⟨N', hN' N' (Nat.le_refl _)⟩, h1, h2, h3⟩

/-- The same with `Expr` called `Sum`. -/
example (ord ord' : HashOrd) : ∃ c c' Q Q', (∃ n, generateParser ord n sample.text = .ok (.code c)) ∧
    (∃ n, generateParser ord' n (respeltSample (nm "Sum")).text = .ok (.code c')) ∧
    readCrate (crateFiles c) = some Q ∧ readCrate (crateFiles c') = some Q' ∧ ∀ input,
      (∀ b q, (∃ n t h, runParse Q n input = .ok (.tuple [.bool b, .int q, t]) h) ↔ ∃ n t h, runParse Q' n input = .ok (.tuple [.bool b, .int q, t]) h) ∧
      ((∃ n, runParse Q n input = .panic) ↔ ∃ n, runParse Q' n input = .panic) := by
  obtain ⟨c, N, hN, -⟩ := round_trip sample_wf sample_small sample_not_dangling (by decide +kernel) sample_comments ord
  obtain ⟨c', N', hN', -⟩ := round_trip (respeltSample_wf isName_sum) (by decide +kernel) (not_dangling_of (by decide +kernel)) (by decide +kernel)
    (fun r hr k hk => by
      simp only [respeltSample, List.mem_cons, List.not_mem_nil, or_false] at hr
      rcases hr with rfl | rfl | rfl <;> cases hk) ord'
  obtain ⟨Q, Q', h1, h2, h3⟩ := C83_renamed_crates_agree sample_wf (respeltSample_wf isName_sum) sample_small (by decide +kernel)
    (hN N (Nat.le_refl _)) (hN' N' (Nat.le_refl _)) (by decide +kernel) (by unfold DGrammar.Closed; decide +kernel) (by unfold DGrammar.Closed; decide +kernel)
    (sample_respelt (by decide) (by decide)) sample_runnable
    (runnable_of (usable_of (n := 3) (by decide +kernel) (by decide +kernel)) (by unfold DGrammar.NoSetName; decide +kernel) (by decide +kernel)
      (by decide +kernel) (by decide +kernel)) (by decide +kernel)
  exact ⟨c, c', Q, Q', ⟨N, hN N (Nat.le_refl _)⟩, ⟨N', hN' N' (Nat.le_refl _)⟩, h1, h2, h3⟩

/-- The same from one file: the other is generated from and runs because this one does. -/
example (ord ord' : HashOrd) : ∃ c c' Q Q', (∃ n, generateParser ord n sample.text = .ok (.code c)) ∧
    (∃ n, generateParser ord' n (respeltSample (nm "Expr")).text = .ok (.code c')) ∧
    readCrate (crateFiles c) = some Q ∧ readCrate (crateFiles c') = some Q' ∧ SameRuns Q Q' := by
  obtain ⟨c, N, hN, -⟩ := round_trip sample_wf sample_small (not_dangling_of (by decide +kernel)) (by decide +kernel) sample_comments ord
  obtain ⟨c', N', hN', Q, Q', h1, h2, h3⟩ := C83_rewritten_file_works sample_wf (respeltSample_wf isName_expr) sample_small (by decide +kernel)
    (hN N (Nat.le_refl _)) (by decide +kernel) (by unfold DGrammar.Closed; decide +kernel) sample_runnable sample_respelt_id (by decide +kernel)
    (by
      intro r hr k hk
      simp only [respeltSample, List.mem_cons, List.not_mem_nil, or_false] at hr
      rcases hr with rfl | rfl | rfl <;> simp at hk) ord'
  exact ⟨c, c', Q, Q', ⟨N, hN N (Nat.le_refl _)⟩, ⟨N', hN' N' (Nat.le_refl _)⟩, h1, h2, h3⟩

/-- Example 11's grammar file with its rules in reverse order: its crate cannot be told apart from example 11's, duplicate lines included. -/
example (ord ord' : HashOrd) : ∃ c c' Q Q', (∃ n, generateParser ord n (fileOf Files.ex11File) = .ok (.code c)) ∧
    (∃ n, generateParser ord' n (DGrammar.text ex11Tree.reverse) = .ok (.code c')) ∧
    readCrate (crateFiles11 c) = some Q ∧ readCrate (crateFiles11 c') = some Q' ∧ SameRuns Q Q' := by
  obtain ⟨c, hgen, -⟩ := C68_example11
  obtain ⟨N, hN⟩ := hgen ord
  have ht : fileOf Files.ex11File = ex11Tree.text := by rw [text_flatten, ex11Ok.text]; rfl
  have hs : ex11Tree.text.length < 82000000 := by decide +kernel
  have hm : DGrammar.Respelt id ex11Tree ex11Tree.reverse :=
    ⟨fun r hr => ⟨r, List.mem_reverse.mpr hr, rfl, rfl, rfl⟩, fun r hr => ⟨r, List.mem_reverse.mp hr, rfl, rfl, rfl⟩, fun _ _ _ _ e => e⟩
  obtain ⟨c', N', hN', Q, Q', h1, h2, h3⟩ := C83_layout_is_invisible_to_hooks ex11Ok.wf (fun r hr => ex11Ok.wf r (List.mem_reverse.mp hr)) hs
    (by decide +kernel) (ht ▸ hN N (Nat.le_refl _)) ex11Ok.faithful ex11Ok.closed ex11_runnable hm (by decide +kernel)
    (fun r hr k hk => DComment.calm_ok (ex11Ok.calm r (List.mem_reverse.mp hr) k hk)) ord'
  exact ⟨c, c', Q, Q', ⟨N, hN N (Nat.le_refl _)⟩, ⟨N', hN' N' (Nat.le_refl _)⟩, h1, h2, h3⟩

end PP.Gen
