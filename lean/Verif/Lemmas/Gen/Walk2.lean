import Verif.Lemmas.Gen.Walk

/-! # The call tree of a written grammar -/
namespace PP.Gen

/-! ### Maps -/
section
variable {V W : Type}

def Map.keys (m : Map V) : List Bytes := m.map (·.1)

theorem Map.keys_insert {m : Map V} {k : Bytes} {v : V} : (m.insert k v).keys = setInsert m.keys k := by
  induction m with
  | nil => rfl
  | cons x m ih =>
    simp only [Map.insert, Map.keys, List.map_cons] at ih ⊢
    by_cases h : x.1 = k
    · subst h
      simp [setInsert]
    · rw [if_neg h, List.map_cons, ih]
      unfold setInsert
      have : (List.contains (x.1 :: m.map (·.1)) k) = List.contains (m.map (·.1)) k := by
        simp; intro e; exact absurd e.symm h
      rw [this]
      split <;> simp

theorem Map.mem_iff {m : Map V} (h : m.keys.Nodup) {k : Bytes} {v : V} : (k, v) ∈ m ↔ m.get k = some v := by
  induction m with
  | nil => simp [Map.get]
  | cons x m ih =>
    obtain ⟨a, b⟩ := x
    simp only [Map.keys, List.map_cons, List.nodup_cons] at h
    have ih := ih h.2
    unfold Map.get at ih ⊢
    by_cases e : a = k
    · subst e
      simp only [List.mem_cons, List.find?_cons, decide_true, Option.map_some, Option.some.injEq, Prod.mk.injEq, true_and]
      constructor
      · rintro (rfl | h')
        · rfl
        · exact absurd (List.mem_map.mpr ⟨_, h', rfl⟩) h.1
      · intro e; exact Or.inl e.symm
    · simp only [List.mem_cons, Prod.mk.injEq, Ne.symm e, false_and, false_or, List.find?_cons, e, decide_false, ih]

theorem Map.get_some_of_key {m : Map V} {k : Bytes} (h : k ∈ m.keys) : ∃ v, m.get k = some v := by
  unfold Map.get
  obtain ⟨x, hx, rfl⟩ := List.mem_map.mp h
  cases hf : m.find? fun p => p.1 = x.1 with
  | none => have := List.find?_eq_none.mp hf x hx; simp at this
  | some y => exact ⟨y.2, rfl⟩
theorem Map.key_of_get {m : Map V} {k : Bytes} {v : V} (h : m.get k = some v) : k ∈ m.keys := by
  unfold Map.get at h
  cases hf : m.find? fun p => p.1 = k with
  | none => rw [hf] at h; cases h
  | some y =>
    have := List.find?_some hf
    have h2 := List.mem_of_find?_eq_some hf
    simp at this
    exact List.mem_map.mpr ⟨y, h2, this⟩

/-- Insert in order. -/
def Map.addAll (m : Map V) (nm : W → Bytes) (val : W → V) (l : List W) : Map V := l.foldl (fun m e => m.insert (nm e) (val e)) m

theorem Map.addAll_keys {m : Map V} {nm : W → Bytes} {val : W → V} {l : List W} : (m.addAll nm val l).keys = setAdd m.keys (l.map nm) := by
  induction l generalizing m with
  | nil => rfl
  | cons x l ih =>
    have : m.addAll nm val (x :: l) = (m.insert (nm x) (val x)).addAll nm val l := rfl
    rw [this, ih, Map.keys_insert]; rfl

theorem Map.addAll_get {m : Map V} {nm : W → Bytes} {val : W → V} {l : List W} {k : Bytes} :
    (m.addAll nm val l).get k = match l.reverse.find? fun e => nm e = k with | some e => some (val e) | none => m.get k := by
  induction l generalizing m with
  | nil => rfl
  | cons x l ih =>
    have : m.addAll nm val (x :: l) = (m.insert (nm x) (val x)).addAll nm val l := rfl
    rw [this, ih, Map.get_insert, List.reverse_cons, List.find?_append]
    cases h : l.reverse.find? fun e => nm e = k with
    | some e => rfl
    | none =>
      by_cases hx : nm x = k <;> simp [hx]
end

theorem DRhs.strip_refs {r : DRhs} : r.strip.refs = r.refs := by cases r <;> simp [DRhs.strip, DRhs.refs]
theorem DRhs.strip_lefts {r : DRhs} : r.strip.lefts = r.lefts := by
  cases r with
  | atom => simp [DRhs.strip, DRhs.lefts]
  | chain o => cases o <;> simp [DRhs.strip, DRhs.lefts]

section
variable {tree : Publisher Dsl} {src : Bytes}

/-- A rule together with the numbers of its node and of the node of its right-hand side. -/
structure Entry where
  r : DRule
  i : Nat
  j : Nat

def Entry.Ok (tree : Publisher Dsl) (src : Bytes) (e : Entry) : Prop :=
  e.r.WF ∧ ∃ q, Spot tree src e.j q (e.r.rhs.strip.tree q) e.r.rhs.strip.text

/-- What a rule adds to the call tree. -/
def RuleCallTree.add (t : RuleCallTree) (e : Entry) : RuleCallTree :=
  { t with rulesKeys := t.rulesKeys.insert e.r.name e.i, rulesRhsKeys := t.rulesRhsKeys.insert e.r.name e.j,
           referenced := t.referenced.insert e.r.name (setAdd [] e.r.rhs.refs) }

theorem walk_zero {nd : Node Dsl} {t : RuleCallTree} : walkNodeChildren tree src 0 nd t = .oof := by unfold walkNodeChildren; rfl

/-- One step of the loop of `walk_node_children`. -/
def walkStep (tree : Publisher Dsl) (src : Bytes) (n : Nat) (t : RuleCallTree) (child : Nat) : Out RuleCallTree := do
  let childNode ← tree.getNode child
  let t ← (if childNode.rule = .r_rule then do
      let name ← getRulesName tree src childNode
      let t := { t with rulesKeys := t.rulesKeys.insert name child }
      let rhs ← getRuleRhsIndex childNode
      let t := { t with rulesRhsKeys := t.rulesRhsKeys.insert name rhs }
      let refs ← getRulesReferencedByRule tree src n childNode []
      .ok { t with referenced := t.referenced.insert name refs }
    else .ok t)
  walkNodeChildren tree src n childNode t

theorem walk_succ {n : Nat} {nd : Node Dsl} {t : RuleCallTree} :
    walkNodeChildren tree src (n + 1) nd t = nd.children.foldlM (walkStep tree src n) t := by
  rw [walkNodeChildren]; rfl

/-- A forest without rules changes nothing. -/
theorem walk_none {ts : List (Tree Dsl)} (h : NoRule .r_rule ts) : ∀ {ks : List Nat} {t : RuleCallTree},
    UnfL tree.nodes ks ts → Conv (fun n => ks.foldlM (walkStep tree src n) t) (.ok t) := by
  induction h with
  | nil => intro ks t h; have := UnfL.inv_nil h; subst this; exact Conv.ok _
  | @cons x s kids ts hx _ _ ih1 ih2 =>
    intro ks t h
    obtain ⟨k, ks, rfl, a, h⟩ := UnfL.inv_cons h
    obtain ⟨nd, g1, g2, g3, g4, g5, g6⟩ := At.inv (p := s.1) (q := s.2) a
    simp only [List.foldlM_cons]
    refine Conv.bind_ok (a := t) ?_ (ih2 h)
    have : Conv (fun n => walkNodeChildren tree src n nd t) (.ok t) := Conv.succ walk_zero ((ih1 g6).congr fun n => walk_succ)
    refine this.congr fun n => ?_
    simp only [walkStep, g1, Out.bind_ok, g2, if_neg hx]

theorem lhs_noRule {r : DRule} {p : Nat} : NoRule .r_rule [r.lhsTree p] := by
  unfold DRule.lhsTree
  split
  · exact .one (by decide) (.one (by decide) .nil)
  · exact .one (by decide) (.glue (.one (by decide) .nil) (.one (by decide) (.one (by decide) .nil)))

theorem rule_name {r : DRule} (hr : r.WF) {p k1 : Nat} {ks : List Nat} {nd : Node Dsl} (h2 : nd.rule = .r_rule)
    (hk : nd.children = k1 :: ks) (a1 : At tree k1 (r.lhsTree p)) (hc : Cut ⟨src⟩ p (p + r.text.length) r.text) :
    getRulesName tree src nd = .ok r.name := by
  have hc' : Cut ⟨src⟩ p (p + r.text.length) ((60 :: (r.name ++ [62])) ++ (r.sep.text ++ 61 :: (r.rhs.text ++ 59 :: (r.w ++ commentsText r.comments)))) := by
    have := hc
    rw [show r.text = (60 :: (r.name ++ [62])) ++ (r.sep.text ++ 61 :: (r.rhs.text ++ 59 :: (r.w ++ commentsText r.comments))) by
      simp [DRule.text]] at this
    simpa [DRule.text] using this
  have c1 := hc'.split.1
  have hl : (60 :: (r.name ++ [62])).length = r.name.length + 2 := by simp
  rw [hl] at c1
  have hd : Source.isCharBoundary src (p + (r.name.length + 2)) = true := by
    have hb := hc'.split.2
    rw [hl] at hb
    cases hs : r.sep.text with
    | nil => rw [hs] at hb; exact boundary_of hb.get (by decide)
    | cons c cs =>
      rw [hs] at hb
      refine boundary_of hb.get ?_
      have hw := hr.2.1
      cases hsep : r.sep with
      | plain w =>
        rw [hsep] at hs hw
        have hs : w = c :: cs := hs
        rcases hw c (by simp [hs]) with rfl | rfl | rfl | rfl <;> decide
      | inline w w' =>
        rw [hsep] at hs hw
        have hs : w ++ (inlineText ++ w') = c :: cs := hs
        cases w with
        | nil =>
          simp [inlineText] at hs
          rw [← hs.1]; decide
        | cons d w =>
          simp at hs
          rcases hw.1 d (by simp) with rfl | rfl | rfl | rfl <;> (rw [← hs.1]; decide)
  have hs : Source.strSlice src p (p + (r.name.length + 2)) = .ok (60 :: (r.name ++ [62])) :=
    c1.strSlice (boundary_of c1.get (by decide)) hd
  have hs2 : Source.strSlice (60 :: (r.name ++ [62])) 1 ((60 :: (r.name ++ [62])).length - 1) = .ok r.name := by
    have := Cut.inner (src := ⟨60 :: (r.name ++ [62])⟩) (p := 0) (q := (60 :: (r.name ++ [62])).length) (s := r.name) (a := 60) (d := 62)
      ⟨[], by simp, by simp, by simp⟩ hr.1.hd (by decide)
    simpa using this
  obtain ⟨nd1, nd2, k2, ks2, g1, g2, hk2, x1, x2, x4, x5⟩ : ∃ nd1 nd2 k2 ks2, tree.getNode k1 = .ok nd1 ∧ nd1.rule = .r_lhs ∧
      nd1.children = k2 :: ks2 ∧ tree.getNode k2 = .ok nd2 ∧ nd2.rule = .r_var_name_decl ∧ nd2.start = p ∧
      nd2.stop = p + (r.name.length + 2) := by
    unfold DRule.lhsTree at a1
    split at a1
    all_goals
      obtain ⟨nd1, g1, g2, g3, g4, g5, g6⟩ := At.inv a1
      obtain ⟨k2, ks2, hk2, a2, g6⟩ := UnfL.inv_cons g6
      obtain ⟨nd2, x1, x2, x3, x4, x5, x6⟩ := At.inv a2
      exact ⟨nd1, nd2, k2, ks2, g1, g2, hk2, x1, x2, x4, x5⟩
  unfold getRulesName
  simp only [h2, hk, ne_eq, not_true, if_false, List.getElem?_cons_zero, Out.ofOption_some, Out.bind_ok, g1, g2, hk2, x1, x2]
  unfold innerString
  rw [x4, x5, hs, Out.bind_ok, if_neg (by simp), hs2]

theorem rule_walk {r : DRule} (hr : r.WF) {i p : Nat} (h : At tree i (r.tree p)) (hc : Cut ⟨src⟩ p (p + r.text.length) r.text) :
    ∃ e : Entry, e.r = r ∧ e.Ok tree src ∧ ∀ t, Conv (fun n => walkStep tree src n t i) (.ok (t.add e)) := by
  unfold DRule.tree at h
  obtain ⟨nd, h1, h2, h3, h4, h5, h6⟩ := At.inv h
  have h6' := h6
  obtain ⟨k1, ks, hk, a1, h6⟩ := UnfL.inv_cons h6
  obtain ⟨k2, ks', rfl, a2, h6⟩ := UnfL.inv_cons h6
  have hn := rule_name hr h2 hk a1 hc
  have hwf := hr.2.2.1.strip.2
  have c1 := (DRule.rhsStart_cut hc).split
  have sp : Spot tree src k2 (r.rhsStart p) (r.rhs.strip.tree (r.rhsStart p)) r.rhs.strip.text :=
    ⟨a2, c1.1, boundary_of c1.2.get (by decide)⟩
  have refs : RefsOf tree src nd.children r.rhs.refs := by
    rw [hk]
    have := RefsOf.cons (RefsOf.none lhs_noRef a1) (RefsOf.cons (rhs_refs hwf sp) (RefsOf.none (src := src) comments_noRef h6))
    simpa [DRhs.strip_refs] using this
  have hrefs : Conv (fun n => getRulesReferencedByRule tree src n nd []) (.ok (setAdd [] r.rhs.refs)) :=
    Conv.succ refs_zero ((refs []).congr fun n => refs_unfold)
  refine ⟨⟨r, i, k2⟩, rfl, ⟨hr, _, sp⟩, fun t => ?_⟩
  have rest : Conv (fun n => walkNodeChildren tree src n nd (t.add ⟨r, i, k2⟩)) (.ok (t.add ⟨r, i, k2⟩)) :=
    Conv.succ walk_zero ((walk_none (.glue lhs_noRule (.glue (rhs_low (.inr rfl)) (comments_low (.inr rfl)))) h6').congr fun n => walk_succ)
  have e0 : ∀ n, walkStep tree src n t i = (getRulesReferencedByRule tree src n nd [] >>= fun refs =>
      walkNodeChildren tree src n nd
        ⟨t.rulesKeys.insert r.name i, t.rulesRhsKeys.insert r.name k2, t.referenced.insert r.name refs, t.notLR, t.leftMost, t.involved⟩) := by
    intro n
    simp only [walkStep, h1, Out.bind_ok, h2, if_true, hn, getRuleRhsIndex, hk, ne_eq, not_true, if_false, List.getElem?_cons_succ,
      List.getElem?_cons_zero, Out.ofOption_some]
    cases getRulesReferencedByRule tree src n nd [] <;> rfl
  exact Conv.congr (Conv.bind_ok hrefs rest) e0

theorem rules_walk {g : DGrammar} : ∀ {ks : List Nat} {p : Nat}, g.WF →
    UnfL tree.nodes ks (g.trees p) → Cut ⟨src⟩ p (p + g.text.length) g.text →
    ∃ es : List Entry, es.map (·.r) = g ∧ (∀ e ∈ es, e.Ok tree src) ∧ ∀ t,
      Conv (fun n => ks.foldlM (walkStep tree src n) t) (.ok (es.foldl RuleCallTree.add t)) := by
  induction g with
  | nil => intro ks p _ h _; have := UnfL.inv_nil h; subst this; exact ⟨[], rfl, by simp, fun t => Conv.ok _⟩
  | cons r g ih =>
    intro ks p hw h hc
    obtain ⟨k, ks, rfl, a, h7⟩ := UnfL.inv_cons h
    have hl : p + (DGrammar.text (r :: g)).length = p + r.text.length + (DGrammar.text g).length := by
      simp [DGrammar.text]; omega
    rw [hl] at hc
    have hc : Cut ⟨src⟩ p (p + r.text.length + (DGrammar.text g).length) (r.text ++ DGrammar.text g) := hc
    obtain ⟨e, e1, e2, e3⟩ := rule_walk (hw r (by simp)) a hc.split.1
    obtain ⟨es, s1, s2, s3⟩ := ih (fun r hr => hw r (by simp [hr])) h7 hc.split.2
    refine ⟨e :: es, by simp [e1, s1], ?_, fun t => ?_⟩
    · intro x hx
      rcases List.mem_cons.mp hx with rfl | hx
      · exact e2
      · exact s2 x hx
    · simp only [List.foldlM_cons]
      exact Conv.bind_ok (e3 t) (s3 _)

theorem add_all (t : RuleCallTree) (es : List Entry) : es.foldl RuleCallTree.add t =
    { t with rulesKeys := t.rulesKeys.addAll (fun e : Entry => e.r.name) Entry.i es,
             rulesRhsKeys := t.rulesRhsKeys.addAll (fun e : Entry => e.r.name) Entry.j es,
             referenced := t.referenced.addAll (fun e : Entry => e.r.name) (fun e => setAdd [] e.r.rhs.refs) es } := by
  induction es generalizing t with
  | nil => rfl
  | cons e es ih => rw [List.foldl_cons, ih]; rfl

theorem find_entry {es : List Entry} {g : DGrammar} (h : es.map (·.r) = g) (nm : Bytes) :
    (es.reverse.find? fun e => e.r.name = nm).map (·.r) = g.lookup nm := by
  subst h
  unfold DGrammar.lookup
  rw [← List.map_reverse, List.find?_map]
  rfl

/-- The call tree after the walk. -/
structure Walked (tree : Publisher Dsl) (src : Bytes) (g : DGrammar) (t : RuleCallTree) : Prop where
  keys : t.rulesKeys.keys = setAdd [] (g.map (·.name))
  rhs : ∀ nm r, g.lookup nm = some r → r.WF ∧ ∃ j q, t.rulesRhsKeys.get nm = some j ∧ Spot tree src j q (r.rhs.strip.tree q) r.rhs.strip.text
  refKeys : t.referenced.keys = setAdd [] (g.map (·.name))
  refs : ∀ nm, t.referenced.get nm = (g.lookup nm).map fun r => setAdd [] r.rhs.refs
  notLR : t.notLR = []
  leftMost : t.leftMost = []
  involved : t.involved = []

theorem walk_conv {g : DGrammar} (hw : g.WF) {nd : Node Dsl} (h1 : tree.getNode 0 = .ok nd)
    (h : UnfL tree.nodes nd.children (g.trees 0)) (hs : src = g.text) :
    ∃ t, Walked tree src g t ∧ Conv (fun n => walkNodeChildren tree src n nd .empty) (.ok t) := by
  obtain ⟨es, s1, s2, s3⟩ := rules_walk (src := src) hw h ⟨[], by simp [hs], rfl, by simp [hs]⟩
  refine ⟨_, ?_, Conv.succ walk_zero ((s3 .empty).congr fun n => walk_succ)⟩
  rw [add_all]
  have hn : es.map (fun e : Entry => e.r.name) = g.map (·.name) := by rw [← s1]; simp
  refine ⟨?_, ?_, ?_, ?_, rfl, rfl, rfl⟩
  · show (Map.addAll _ _ _ _).keys = _
    rw [Map.addAll_keys, hn]; rfl
  · intro nm r hr
    have := find_entry s1 nm
    rw [hr] at this
    cases hf : es.reverse.find? fun e => e.r.name = nm with
    | none => rw [hf] at this; cases this
    | some e =>
      rw [hf] at this
      injection this with this
      have this : e.r = r := this
      have he := s2 e (List.mem_reverse.mp (List.mem_of_find?_eq_some hf))
      obtain ⟨w, q, hq⟩ := he
      rw [this] at w hq
      refine ⟨w, e.j, q, ?_, hq⟩
      show (Map.addAll _ _ _ _).get nm = _
      rw [Map.addAll_get, hf]
  · show (Map.addAll _ _ _ _).keys = _
    rw [Map.addAll_keys, hn]; rfl
  · intro nm
    show (Map.addAll _ _ _ _).get nm = _
    rw [Map.addAll_get, ← find_entry s1 nm]
    cases es.reverse.find? fun e => e.r.name = nm <;> rfl

theorem lookup_iff {g : DGrammar} {nm : Bytes} : (∃ r, g.lookup nm = some r) ↔ ∃ r ∈ g, r.name = nm := by
  unfold DGrammar.lookup
  constructor
  · rintro ⟨r, h⟩
    refine ⟨r, List.mem_reverse.mp (List.mem_of_find?_eq_some h), ?_⟩
    have := List.find?_some h
    simpa using this
  · rintro ⟨r, h, e⟩
    cases hf : g.reverse.find? fun r => r.name = nm with
    | none => have := List.find?_eq_none.mp hf r (List.mem_reverse.mpr h); simp [e] at this
    | some x => exact ⟨x, rfl⟩
theorem lookup_name {g : DGrammar} {nm : Bytes} {r} (h : g.lookup nm = some r) : r ∈ g ∧ r.name = nm := by
  unfold DGrammar.lookup at h
  refine ⟨List.mem_reverse.mp (List.mem_of_find?_eq_some h), ?_⟩
  have := List.find?_some h
  simpa using this

/-! ### Leftmost references of all rules -/

/-- The leftmost references recorded by the detector. -/
structure LeftTable (g : DGrammar) (marked : List Bytes) (m : Map (List Bytes)) : Prop where
  nodup : m.keys.Nodup
  get : ∀ nm, m.get nm = if nm ∈ marked then none else (g.lookup nm).map fun r => setAdd [] r.rhs.lefts

theorem leftMost_loop {g : DGrammar} {ns : List Bytes} : ∀ {t : RuleCallTree}, Walked tree src g { t with notLR := [], leftMost := [] } →
    (∀ nm ∈ ns, ∃ r, g.lookup nm = some r) → 
    ∃ m, m = t.leftMost.addAll id (fun nm => match g.lookup nm with | some r => setAdd [] r.rhs.lefts | none => []) ns ∧
    Conv (fun fuel => ns.foldlM (fun t name => do
      let key ← Out.ofOption .indexOutOfBounds (t.rulesRhsKeys.get name)
      let node ← tree.getNode key
      if node.rule ≠ .r_rhs then .panic .debugAssert
      else do
        let lm ← leftMostOf tree src fuel node []
        .ok { t with leftMost := t.leftMost.insert name lm }) t) (.ok { t with leftMost := m }) := by
  induction ns with
  | nil => intro t _ _; exact ⟨_, rfl, Conv.ok _⟩
  | cons nm ns ih =>
    intro t ht hns
    obtain ⟨r, hr⟩ := hns nm (by simp)
    obtain ⟨hwf, j, q, hj, sp⟩ := ht.rhs nm r hr
    obtain ⟨q2, kk, hT⟩ := r.rhs.strip.tree_rule q
    obtain ⟨nd, g1, g2, _⟩ := At.rule (hT ▸ sp.at_)
    have hl := rhs_lefts hwf.2.2.1.strip.2 sp g1 []
    obtain ⟨m, hm, hc⟩ := ih (t := { t with leftMost := t.leftMost.insert nm (setAdd [] r.rhs.lefts) })
      ⟨ht.keys, ht.rhs, ht.refKeys, ht.refs, rfl, rfl, ht.involved⟩ (fun x hx => hns x (by simp [hx]))
    refine ⟨m, ?_, ?_⟩
    · rw [hm]
      have : ∀ (m : Map (List Bytes)) f, m.addAll id f (nm :: ns) = (m.insert nm (f nm)).addAll id f ns := fun _ _ => rfl
      rw [this, hr]
    · rw [DRhs.strip_lefts] at hl
      simp only [List.foldlM_cons]
      refine Conv.bind_ok (a := { t with leftMost := t.leftMost.insert nm (setAdd [] r.rhs.lefts) }) ?_ hc
      have hj' : t.rulesRhsKeys.get nm = some j := hj
      have := Conv.bind_ok (g := fun _ lm => Out.ok { t with leftMost := t.leftMost.insert nm lm }) hl (Conv.ok _)
      refine this.congr fun n => ?_
      simp only [hj', Out.ofOption_some, Out.bind_ok, g1, g2, ne_eq, not_true, if_false]

end

theorem leftMost_conv {tree : Publisher Dsl} {src : Bytes} {g : DGrammar} {t : RuleCallTree} (ht : Walked tree src g t) (ord : HashOrd)
    (marked : List Bytes) : ∃ m, LeftTable g marked m ∧
    Conv (fun n => leftMostOfAll tree src ord n { t with notLR := marked }) (.ok { t with notLR := marked, leftMost := m }) := by
  have hmem : ∀ nm, nm ∈ ((ord.perm [2] t.rulesKeys).map (·.1)).filter (fun r => !marked.contains r) ↔ (∃ r, g.lookup nm = some r) ∧ nm ∉ marked := by
    intro nm
    rw [List.mem_filter, lookup_iff]
    have hp : ((ord.perm [2] t.rulesKeys).map (·.1)).Perm t.rulesKeys.keys := (ord.ok _ _).map _
    rw [hp.mem_iff, ht.keys, mem_setAdd]
    simp
  obtain ⟨m, hm, hc⟩ := leftMost_loop (tree := tree) (src := src) (g := g) (t := { t with notLR := marked })
    (ns := ((ord.perm [2] t.rulesKeys).map (·.1)).filter fun r => !marked.contains r)
    ⟨ht.keys, ht.rhs, ht.refKeys, ht.refs, rfl, rfl, ht.involved⟩ (fun nm h => ((hmem nm).mp h).1)
  refine ⟨m, ⟨?_, ?_⟩, hc⟩
  · rw [hm, Map.addAll_keys]
    exact setAdd_nodup (by simp [ht.leftMost, Map.keys])
  · intro nm
    rw [hm, Map.addAll_get]
    simp only [ht.leftMost]
    generalize hns : ((ord.perm [2] t.rulesKeys).map (·.1)).filter (fun r => !marked.contains r) = ns at hmem
    cases hf : ns.reverse.find? fun e => (id e : Bytes) = nm with
    | some e =>
      have h1 := List.find?_some hf
      have h2 := List.mem_reverse.mp (List.mem_of_find?_eq_some hf)
      simp at h1
      subst h1
      obtain ⟨⟨r, hr⟩, hnm⟩ := (hmem _).mp h2
      simp [hr, hnm]
    | none =>
      have h1 : nm ∉ ns := by
        intro h
        have := List.find?_eq_none.mp hf nm (List.mem_reverse.mpr h)
        simp at this
      rw [hmem] at h1
      show Map.get [] nm = _
      split
      · rfl
      · next h =>
        cases hg : g.lookup nm with
        | none => rfl
        | some r => exact absurd ⟨⟨r, hg⟩, h⟩ h1

end PP.Gen
