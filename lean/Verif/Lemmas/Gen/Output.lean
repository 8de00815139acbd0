import Verif.Lemmas.Gen.Front

/-! # Reading off the generated code -/
namespace PP.Gen

theorem strip_wf {r : DRhs} (h : r.WF) : r.strip.WF := by
  cases r with
  | atom w a => exact ⟨by simp [IsWs], h.2⟩
  | chain o w a as => exact ⟨by simp [IsWs], h.2⟩
theorem strip_meaning {r : DRhs} {lv c} : r.strip.meaning lv c = r.meaning lv c := by
  cases r <;> simp only [DRhs.strip, DRhs.meaning]
theorem strip_panics {r : DRhs} : r.strip.Panics ↔ r.Panics := by
  cases r <;> simp only [DRhs.strip, DRhs.Panics]
theorem strip_faithful {r : DRhs} : r.strip.Faithful ↔ r.Faithful := by
  cases r <;> simp only [DRhs.strip, DRhs.Faithful]

theorem DGrammar.ctx_named {g : DGrammar} (hw : g.WF) : g.ctx.Named := by
  intro nm inv hi x hx
  by_cases hf : g.Flagged nm
  · obtain ⟨s, hs, _, hm⟩ := g.ctx_flagged hf
    rw [hs] at hi
    injection hi with hi
    subst hi
    obtain ⟨r, hr, rfl⟩ := ((hm x).mp hx).1.declared
    exact hw.name_ne hr
  · rw [g.ctx_not hf] at hi; cases hi

/-- Code `k` of a rule, and the hooks it adds. -/
structure CodeOf (c : Ctx) (r : DRule) (k : RuleCode) (hooks : List Bytes) : Prop where
  name : k.name = lower r.name
  comment : commentsLines none r.comments = .ok k.comment
  lines : ∃ P, r.rhs.strip.comp c 1 = .ok P ∧ k.lines = P.lines ++ [.exec (P.key 1)] ∧ hooks = P.hooks

/-- Codes of a list of rules, and all their hooks in order. -/
inductive Codes (c : Ctx) : List DRule → List RuleCode → List Bytes → Prop where
  | nil : Codes c [] [] []
  | cons {r k h rs ks hs} : CodeOf c r k h → Codes c rs ks hs → Codes c (r :: rs) (k :: ks) (h ++ hs)

theorem ruleCode_ok {c : Ctx} {r : DRule} {hooks : List Bytes} {y} (h : r.code c hooks = .ok y) :
    ∃ hs, CodeOf c r y.1 hs ∧ y.2 = hooks ++ hs := by
  unfold DRule.code at h
  obtain ⟨P, h1, h2⟩ := Out.bind_eq_ok.mp h
  obtain ⟨cm, h3, h4⟩ := Out.bind_eq_ok.mp h2
  injection h4 with h4
  subst h4
  exact ⟨P.hooks, ⟨rfl, h3, P, h1, rfl, rfl⟩, rfl⟩

theorem gramCode_ok {c : Ctx} {g : DGrammar} {acc y} (h : gramCode c acc g = .ok y) :
    ∃ ks hs, Codes c g ks hs ∧ y = (acc.1 ++ ks, acc.2 ++ hs) := by
  induction g generalizing acc with
  | nil => simp [gramCode] at h; subst h; exact ⟨[], [], .nil, by simp⟩
  | cons r g ih =>
    simp only [gramCode] at h
    obtain ⟨z, h1, h2⟩ := Out.bind_eq_ok.mp h
    obtain ⟨hs, h3, h4⟩ := ruleCode_ok h1
    obtain ⟨ks, hs', h5, h6⟩ := ih h2
    exact ⟨z.1 :: ks, hs ++ hs', .cons h3 h5, by rw [h6]; simp [h4]⟩

theorem output_ok {g : DGrammar} {c : GeneratedCode} (h : g.output = .ok (.code c)) :
    ¬ g.Dangling ∧ Codes g.ctx g c.rules c.hookImports ∧ c.variants = variantsOf g.symbols ∧ c.numRules = c.variants.length := by
  unfold DGrammar.output at h
  split at h
  · cases h
  · next hd =>
    obtain ⟨y, h1, h2⟩ := Out.bind_eq_ok.mp h
    injection h2 with h2
    injection h2 with h2
    subst h2
    obtain ⟨ks, hs, h3, h4⟩ := gramCode_ok h1
    subst h4
    exact ⟨hd, by simpa using h3, rfl, rfl⟩

theorem output_not_error {g : DGrammar} {l : Nat} : g.output ≠ .ok (.syntaxError l) := by
  intro h
  unfold DGrammar.output at h
  split at h
  · cases h
  · obtain ⟨y, h1, h2⟩ := Out.bind_eq_ok.mp h
    injection h2 with h2
    cases h2

theorem Codes.get {c : Ctx} {rs ks hs} (h : Codes c rs ks hs) : rs.length = ks.length ∧
    ∀ (i : Nat) r, rs[i]? = some r → ∃ k hs', ks[i]? = some k ∧ CodeOf c r k hs' := by
  induction h with
  | nil => simp
  | @cons r k h rs ks hs h1 _ ih =>
    refine ⟨by simp [ih.1], fun i r' hr => ?_⟩
    cases i with
    | zero => simp at hr; subst hr; exact ⟨k, h, rfl, h1⟩
    | succ i => simpa using ih.2 i r' (by simpa using hr)

theorem comment_panics {c : DComment} : (∃ l, c.lines = .ok l) ↔ ¬ c.Panics := by
  unfold DComment.lines DComment.Panics
  cases hb : c.body with
  | nil => simp
  | cons b s =>
    simp only [cont_iff]
    by_cases h : b.toNat / 64 = 2 <;> simp [h]
theorem comments_panics {cs : List DComment} {a} : (∃ l, commentsLines a cs = .ok l) ↔ ∀ c ∈ cs, ¬ c.Panics := by
  induction cs generalizing a with
  | nil => simp [commentsLines]
  | cons c cs ih =>
    simp only [commentsLines, Out.bind_eq_ok, List.mem_cons, forall_eq_or_imp, ← comment_panics (c := c)]
    constructor
    · rintro ⟨l, l', h1, h2⟩
      exact ⟨⟨l', h1⟩, ih.mp ⟨l, h2⟩⟩
    · rintro ⟨⟨l', h1⟩, h2⟩
      obtain ⟨l, h3⟩ := (ih (a := some l')).mpr h2
      exact ⟨l, l', h1, h3⟩

theorem ruleCode_panics {c : Ctx} {r : DRule} (hr : r.WF) {hooks} : (∃ y, r.code c hooks = .ok y) ↔ ¬ r.rhs.Panics ∧ ∀ k ∈ r.comments, ¬ k.Panics := by
  rw [← strip_panics, ← rhs_panics (c := c) (L := 1) (strip_wf hr.2.2.1), ← comments_panics (a := none)]
  unfold DRule.code
  simp only [Out.bind_eq_ok]
  constructor
  · rintro ⟨y, P, h1, cm, h2, _⟩; exact ⟨⟨P, h1⟩, ⟨cm, h2⟩⟩
  · rintro ⟨⟨P, h1⟩, ⟨cm, h2⟩⟩; exact ⟨_, P, h1, cm, h2, rfl⟩

theorem gramCode_panics {c : Ctx} {g : DGrammar} (hw : g.WF) {acc} : (∃ y, gramCode c acc g = .ok y) ↔
    ∀ r ∈ g, ¬ r.rhs.Panics ∧ ∀ k ∈ r.comments, ¬ k.Panics := by
  induction g generalizing acc with
  | nil => simp [gramCode]
  | cons r g ih =>
    have ih := fun a => ih (acc := a) fun x hx => hw x (by simp [hx])
    simp only [gramCode, Out.bind_eq_ok, List.mem_cons, forall_eq_or_imp]
    rw [← ruleCode_panics (c := c) (hooks := acc.2) (hw r (by simp))]
    constructor
    · rintro ⟨y, z, h1, h2⟩
      exact ⟨⟨z, h1⟩, (ih _).mp ⟨y, h2⟩⟩
    · rintro ⟨⟨z, h1⟩, h2⟩
      obtain ⟨y, h3⟩ := (ih (acc.1 ++ [z.1], z.2)).mpr h2
      exact ⟨y, z, h1, h3⟩

theorem output_panics {g : DGrammar} (hw : g.WF) : (∃ c, g.output = .ok (.code c)) ↔
    ¬ g.Dangling ∧ ∀ r ∈ g, ¬ r.rhs.Panics ∧ ∀ k ∈ r.comments, ¬ k.Panics := by
  unfold DGrammar.output
  by_cases hd : g.Dangling
  · simp [hd]
  · rw [if_neg hd, ← gramCode_panics (c := g.ctx) hw (acc := ([], []))]
    constructor
    · rintro ⟨c, h⟩
      obtain ⟨y, h1, _⟩ := Out.bind_eq_ok.mp h
      exact ⟨hd, y, h1⟩
    · rintro ⟨_, y, h1⟩; exact ⟨_, Out.bind_eq_ok.mpr ⟨y, h1, rfl⟩⟩

/-! ### Against the specification -/

theorem lookup_leads_undeclared {g : DGrammar} {x y : Bytes} (h : g.Leads x y) (hy : g.lookup y = none) :
    g.lookup x = none ∨ g.Dangling := by
  induction h with
  | refl => exact Or.inl hy
  | @step x z y h1 h2 ih =>
    rcases ih hy with h | h
    · exact Or.inr ⟨x, z, h1, h⟩
    · exact Or.inr h

theorem flagged_iff {g : DGrammar} (hd : ¬ g.Dangling) {x : Bytes} : g.Flagged x ↔ g.LeftRecursive x := by
  constructor
  · rintro ⟨⟨r, hr⟩, y, h1, h2 | ⟨z, h2, h3⟩⟩
    · rcases lookup_leads_undeclared h1 h2 with h | h
      · rw [hr] at h; cases h
      · exact absurd h hd
    · exact ⟨y, z, h1, h2, h3⟩
  · rintro ⟨y, z, h1, h2, h3⟩
    refine ⟨?_, y, h1, Or.inr ⟨z, h2, h3⟩⟩
    cases h1 with
    | refl => obtain ⟨r, hr, _⟩ := h2; exact ⟨r, hr⟩
    | step h _ => obtain ⟨r, hr, _⟩ := h; exact ⟨r, hr⟩

theorem refs_of {g : DGrammar} (hd : ¬ g.Dangling) : RefsFor g g.ctx.refs := by
  refine ⟨fun x => symbols_inline g, fun x => ?_, fun x inv h f => ?_⟩
  · show (g.ctx.lr x).map _ = none ↔ _
    rw [Option.map_eq_none_iff, ← flagged_iff hd]
    constructor
    · intro h hf
      obtain ⟨s, hs, _⟩ := g.ctx_flagged hf
      rw [hs] at h; cases h
    · exact g.ctx_not
  · have h : (g.ctx.lr x).map (fun inv => (sortNames (inv.map cap)).map lower) = some inv := h
    by_cases hf : g.Flagged x
    · obtain ⟨s, hs, _, hm⟩ := g.ctx_flagged hf
      rw [hs] at h
      injection h with h
      have h : (sortNames (s.map cap)).map lower = inv := h
      subst h
      simp only [List.mem_map, mem_sortNames]
      constructor
      · rintro ⟨_, ⟨y, hy, rfl⟩, rfl⟩
        obtain ⟨h1, h2⟩ := (hm y).mp hy
        exact ⟨y, (flagged_iff hd).mp h1, h2, lower_cap y⟩
      · rintro ⟨y, h1, h2, rfl⟩
        exact ⟨_, ⟨y, (hm y).mpr ⟨(flagged_iff hd).mpr h1, h2⟩, rfl⟩, lower_cap y⟩
    · rw [g.ctx_not hf] at h; cases h

theorem unfL_of_unfolds {R : Type} {p : Publisher R} {k : Nat} {T : Tree R} (h : p.Unfolds k T) : UnfL p.nodes [k] [T] := by
  induction h with
  | @mk k nd kids h1 h2 h3 ih =>
    refine .cons h1 ?_ .nil
    have : ∀ (cs : List Nat) (ts : List (Tree R)), ts.length = cs.length →
        (∀ (i : Nat) c t, cs[i]? = some c → ts[i]? = some t → UnfL p.nodes [c] [t]) → UnfL p.nodes cs ts := by
      intro cs
      induction cs with
      | nil => intro ts hl _; have := List.eq_nil_of_length_eq_zero hl; subst this; exact .nil
      | cons c cs ihc =>
        intro ts hl hi
        cases ts with
        | nil => simp at hl
        | cons t ts =>
          have h0 := hi 0 c t rfl rfl
          have h1 := ihc ts (by simpa using hl) fun i c' t' hc ht => hi (i + 1) c' t' (by simpa using hc) (by simpa using ht)
          exact UnfL.append h0 h1
    exact this _ _ h2 fun i c t hc ht => ih i c t hc ht

theorem TreeOf.inv {g : DGrammar} {t : Publisher Dsl} (h : TreeOf g t) : ∃ nd, t.getNode 0 = .ok nd ∧ nd.rule = .r_grammar ∧
    UnfL t.nodes nd.children (g.trees 0) := by
  obtain ⟨nd, h1, h2, _, _, _, h6⟩ := At.inv (unfL_of_unfolds h)
  exact ⟨nd, h1, h2, h6⟩

theorem splitLines_ne (s : Bytes) : splitLines s ≠ [] := by
  cases s with
  | nil => simp [splitLines]
  | cons c s =>
    unfold splitLines
    split
    · simp
    · split <;> simp
theorem splitLines_lines (s : Bytes) : LinesOf s (splitLines s) := by
  refine ⟨?_, ?_, splitLines_ne s⟩
  · induction s with
    | nil => rfl
    | cons c s ih =>
      unfold splitLines
      split
      · next h =>
        subst h
        cases hs : splitLines s with
        | nil => exact absurd hs (splitLines_ne s)
        | cons l ls => rw [hs] at ih; rw [List.intercalate_cons_cons]; simp [ih]
      · split
        · next h => exact absurd h (splitLines_ne s)
        · next l ls hs =>
          rw [hs] at ih
          cases ls with
          | nil => simp at ih ⊢; exact ih
          | cons a ls => rw [List.intercalate_cons_cons] at ih ⊢; rw [← ih]; simp
  · induction s with
    | nil => simp [splitLines]
    | cons c s ih =>
      unfold splitLines
      split
      · intro l hl
        rcases List.mem_cons.mp hl with rfl | hl
        · simp
        · exact ih l hl
      · next hc =>
        split
        · next h => exact absurd h (splitLines_ne s)
        · next l ls hs =>
          rw [hs] at ih
          intro x hx
          rcases List.mem_cons.mp hx with rfl | hx
          · have := ih l (by simp)
            simp only [List.mem_cons, not_or]
            exact ⟨fun h => hc h.symm, this⟩
          · exact ih x (by simp [hx])

theorem isSpace_iff {c : UInt8} : isSpace c = true ↔ IsSpace c := by
  unfold isSpace IsSpace
  simp [UInt8.le_iff_toNat_le]

theorem dropWhile_head {p : UInt8 → Bool} (s : Bytes) : ∃ a, s = a ++ s.dropWhile p ∧ (∀ c ∈ a, p c = true) ∧ ∀ c, (s.dropWhile p).head? = some c → p c = false := by
  induction s with
  | nil => exact ⟨[], by simp⟩
  | cons c s ih =>
    by_cases h : p c = true
    · obtain ⟨a, h1, h2, h3⟩ := ih
      refine ⟨c :: a, ?_, ?_, ?_⟩
      · simp [List.dropWhile_cons, h, ← h1]
      · intro d hd
        rcases List.mem_cons.mp hd with rfl | hd
        · exact h
        · exact h2 d hd
      · simpa [List.dropWhile_cons, h] using h3
    · refine ⟨[], ?_, by simp, ?_⟩
      · simp [List.dropWhile_cons, h]
      · simp only [List.dropWhile_cons, h]
        intro d hd
        simp at hd; subst hd; simpa using h

theorem trim_trimmed (s : Bytes) : Trimmed IsSpace s (trim s) := by
  obtain ⟨a, h1, h2, h3⟩ := dropWhile_head (p := isSpace) s
  obtain ⟨b, g1, g2, g3⟩ := dropWhile_head (p := isSpace) (s.dropWhile isSpace).reverse
  have e : s.dropWhile isSpace = trim s ++ b.reverse := by
    have := congrArg List.reverse g1
    simpa [trim] using this
  refine ⟨a, b.reverse, by rw [← e]; exact h1, fun c hc => isSpace_iff.mp (h2 c hc), fun c hc => isSpace_iff.mp (g2 c (by simpa using hc)), ?_, ?_⟩
  · intro c hc
    have : (s.dropWhile isSpace).head? = some c := by
      rw [e]
      cases ht : trim s with
      | nil => rw [ht] at hc; cases hc
      | cons d t => rw [ht] at hc; simpa using hc
    have := h3 c this
    rw [← isSpace_iff]; simp [this]
  · intro c hc
    have : ((s.dropWhile isSpace).reverse.dropWhile isSpace).head? = some c := by
      unfold trim at hc
      rw [List.getLast?_reverse] at hc
      exact hc
    have := g3 c this
    rw [← isSpace_iff]; simp [this]

end PP.Gen
