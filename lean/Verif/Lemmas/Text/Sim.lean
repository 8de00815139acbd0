import Verif.Lemmas.Text.Read

/-! # The meaning of the statements read -/
namespace PP.Gen.Text

def paramNames : List String := ["user_state", "parent", "context", "source", "position"]
/-- The local variables that are not closures. -/
def reserved : List Bytes := ["user_state", "parent", "context", "source", "position", "involved_set"].map utf8Of

/-- The local variables are those of the scope. -/
structure Sim (S : Scope) (L : Locals) : Prop where
  clo : ∀ i, L.expr (clo i) = S.clo i
  inv : L.lookup (utf8Of "involved_set") = S.inv.map Val.set
  par : ∀ n ∈ paramNames, L.lookup (utf8Of n) = some .param
  only : ∀ x, L.lookup x ≠ none → x ∈ reserved ∨ ∃ i, x = Text.clo i

/-- Not a name a local variable can have. -/
def Free (x : Bytes) : Prop := x ∉ reserved ∧ ∀ i, x ≠ clo i

theorem Sim.free {S : Scope} {L : Locals} (h : Sim S L) {x : Bytes} (hx : Free x) : L.lookup x = none := by
  cases hl : L.lookup x with
  | none => rfl
  | some v =>
    rcases h.only x (by rw [hl]; simp) with h1 | ⟨i, h1⟩
    · exact (hx.1 h1).elim
    · exact (hx.2 i h1).elim

theorem clo_digit (i : Nat) : ∃ c ∈ clo i, isDig c = true := by
  obtain ⟨h1, h2, _⟩ := decimal_spec i
  cases hd : decimal i with
  | nil => exact (h1 hd).elim
  | cons c cs => exact ⟨c, by simp [clo, hd], h2 c (by simp [hd])⟩

theorem reserved_no_digit : ∀ x ∈ reserved, ∀ c ∈ x, isDig c = false := by decide +kernel
theorem keyword_no_digit : ∀ x ∈ keywords, ∀ c ∈ x, isDig c = false := by decide +kernel

theorem clo_not_reserved (i : Nat) : clo i ∉ reserved := by
  intro h
  obtain ⟨c, hc, hd⟩ := clo_digit i
  rw [reserved_no_digit _ h c hc] at hd; cases hd
theorem clo_not_keyword (i : Nat) : clo i ∉ keywords := by
  intro h
  obtain ⟨c, hc, hd⟩ := clo_digit i
  rw [keyword_no_digit _ h c hc] at hd; cases hd

theorem name_no_digit {x : Bytes} (h : IsName x) : ∀ c ∈ x, isDig c = false := by
  have key : ∀ c : UInt8, IsLetter c ∨ c = 95 → isDig c = false := by
    intro c hc
    simp only [isDig, Bool.and_eq_false_iff, decide_eq_false_iff_not, UInt8.le_iff_toNat_le]
    right
    rcases hc with hc | rfl
    · unfold IsLetter at hc
      simp; omega
    · simp
  cases x with
  | nil => exact h.elim
  | cons c cs =>
    intro d hd
    rcases List.mem_cons.mp hd with rfl | hd
    · exact key _ (.inl h.1)
    · exact key _ (h.2 d hd)

theorem name_free {x : Bytes} (h : IsName x) (hr : x ∉ reserved) : Free x := by
  refine ⟨hr, fun i e => ?_⟩
  subst e
  obtain ⟨c, hc, hd⟩ := clo_digit i
  rw [name_no_digit h c hc] at hd; cases hd

theorem Sim.init : Sim .empty .init where
  clo i := by
    have : Locals.init.lookup (Text.clo i) = none := by
      have h1 := clo_not_reserved i
      simp only [reserved, List.map_cons, List.map_nil, List.mem_cons, List.not_mem_nil, or_false, not_or] at h1
      simp [Locals.init, List.lookup, beq_false_of_ne h1.1, beq_false_of_ne h1.2.1, beq_false_of_ne h1.2.2.1, beq_false_of_ne h1.2.2.2.1,
        beq_false_of_ne h1.2.2.2.2.1]
    simp [Locals.expr, this, Scope.empty]
  inv := by
    have : (Locals.init.lookup (utf8Of "involved_set")).isNone = true := by decide +kernel
    simpa [Scope.empty] using this
  par n hn := by
    simp only [paramNames, List.mem_cons, List.not_mem_nil, or_false] at hn
    rcases hn with rfl | rfl | rfl | rfl | rfl <;> rfl
  only x hx := by
    left
    have : ∀ (l : Locals), l.lookup x ≠ none → x ∈ l.map (·.1) := by
      intro l
      induction l with
      | nil => intro h; exact (h rfl).elim
      | cons y l ih =>
        intro h
        simp only [List.lookup] at h
        split at h
        · next he => simp [LawfulBEq.eq_of_beq he]
        · simp [ih h]
    have h2 := this _ hx
    simp only [Locals.init, List.map_cons, List.map_nil] at h2
    simp only [reserved, List.map_cons, List.map_nil, List.mem_cons, List.not_mem_nil, or_false] at h2 ⊢
    rcases h2 with h | h | h | h | h <;> simp [h]

theorem Sim.set {S : Scope} {L : Locals} (h : Sim S L) (i : Nat) (e : Expr Bytes) : Sim (S.set i e) ((Text.clo i, .expr e) :: L) where
  clo j := by
    simp only [Locals.expr, Scope.set, List.lookup]
    by_cases hj : j = i
    · subst hj; simp
    · rw [beq_false_of_ne fun e => hj (clo_inj e), if_neg hj]
      exact h.clo j
  inv := by
    have : (utf8Of "involved_set" == Text.clo i) = false := beq_false_of_ne fun e => clo_not_reserved i (e ▸ (by decide +kernel))
    simp only [List.lookup, this]
    exact h.inv
  par n hn := by
    have : (utf8Of n == Text.clo i) = false := by
      refine beq_false_of_ne fun e => clo_not_reserved i (e ▸ ?_)
      simp only [paramNames, List.mem_cons, List.not_mem_nil, or_false] at hn
      rcases hn with rfl | rfl | rfl | rfl | rfl <;> decide +kernel
    simp only [List.lookup, this]
    exact h.par n hn
  only x hx := by
    simp only [List.lookup] at hx
    split at hx
    · next he => exact .inr ⟨i, LawfulBEq.eq_of_beq he⟩
    · exact h.only x hx

theorem Sim.setInv {S : Scope} {L : Locals} (h : Sim S L) (s : List Bytes) :
    Sim { S with inv := some s } ((utf8Of "involved_set", .set s) :: L) where
  clo j := by
    have : (Text.clo j == utf8Of "involved_set") = false := beq_false_of_ne fun e => clo_not_reserved j (e ▸ (by decide +kernel))
    simp only [Locals.expr, List.lookup, this]
    exact h.clo j
  inv := by simp [List.lookup]
  par n hn := by
    have : (utf8Of n == utf8Of "involved_set") = false := by
      simp only [paramNames, List.mem_cons, List.not_mem_nil, or_false] at hn
      rcases hn with rfl | rfl | rfl | rfl | rfl <;> decide +kernel
    simp only [List.lookup, this]
    exact h.par n hn
  only x hx := by
    simp only [List.lookup] at hx
    split at hx
    · next he => exact .inl (LawfulBEq.eq_of_beq he ▸ (by decide +kernel))
    · exact h.only x hx

/-- A rule function that can be called by name. -/
def Names.Callable (g : Names) (f : Bytes) : Prop := Free f ∧ f ∈ g.fns ∧ f ∉ g.hooks

/-- The names a line uses mean what they are to mean. -/
def LineIn (g : Names) : Line → Prop
  | .matchRange _ a b => a < 2 ^ 32 ∧ b < 2 ^ 32
  | .hooked _ nm _ => Free nm ∧ nm ∈ g.hooks ∧ nm ∉ g.fns
  | .varName _ v f | .varNameLR _ v f => v ∈ g.variants ∧ g.Callable f
  | .involvedSet vs => ∀ v ∈ vs, v ∈ g.variants
  | .inlined _ f => g.Callable f
  | _ => True

/-- No item is named like a combinator. -/
def Names.NoCore (g : Names) : Prop := ∀ x ∈ g.fns ++ g.hooks, IsName x

theorem underscore_not_name {x : Bytes} (h : x.head? = some 95) : ¬ IsName x := by
  cases x with
  | nil => cases h
  | cons c cs =>
    simp only [List.head?_cons, Option.some.injEq] at h
    subst h
    rintro ⟨h1, _⟩
    unfold IsLetter at h1
    simp at h1

theorem underscore_free {x : Bytes} (h : x.head? = some 95) : Free x := by
  refine ⟨fun hr => ?_, ?_⟩
  · have : ∀ y ∈ reserved, y.head? ≠ some 95 := by decide +kernel
    exact this x hr h
  · rintro i rfl
    have : (clo i).head? = some 99 := by
      unfold clo
      rw [show utf8Of "closure_" = 99 :: utf8Of "losure_" by decide +kernel]; rfl
    rw [this] at h; cases h

theorem core_call {g : Names} (hg : g.NoCore) {S : Scope} {L : Locals} (h : Sim S L) {f : Bytes} {args : List Arg} (hf : f.head? = some 95) :
    callMeaning g L f args = coreCall g L f args := by
  have h1 : L.lookup f = none := h.free (underscore_free hf)
  have h2 : f ∉ g.fns := fun hm => underscore_not_name hf (hg f (by simp [hm]))
  have h3 : f ∉ g.hooks := fun hm => underscore_not_name hf (hg f (by simp [hm]))
  simp [callMeaning, h1, h2, h3]

theorem Sim.params {S : Scope} {L : Locals} (h : Sim S L) {names : List String} (hn : ∀ n ∈ names, n ∈ paramNames) :
    L.areParams (names.map fun n => .var (utf8Of n)) names = true := by
  simp only [Locals.areParams, decide_true, Bool.true_and, List.all_eq_true]
  intro n hm
  rw [h.par n (hn n hm)]

theorem Sim.isFn {g : Names} {S : Scope} {L : Locals} (h : Sim S L) {f : Bytes} (hf : g.Callable f) : g.isFn L f = true := by
  simp [Names.isFn, h.free hf.1, hf.2.1, hf.2.2]

theorem Sim.expr {S : Scope} {L : Locals} (h : Sim S L) {j : Nat} : L.expr (Text.clo j) = S.clo j := h.clo j

theorem unaries_unary (op : Unary) : unaries.lookup op.text = some op := by cases op <;> decide +kernel
theorem unaries_binary (op : Binary) : unaries.lookup op.text = none := by cases op <;> decide +kernel
theorem binaries_binary (op : Binary) : binaries.lookup op.text = some op := by cases op <;> decide +kernel
theorem unary_head (op : Unary) : op.text.head? = some 95 := by cases op <;> decide +kernel
theorem binary_head (op : Binary) : op.text.head? = some 95 := by cases op <;> decide +kernel

theorem line_step {g : Names} (hg : g.NoCore) {S S' : Scope} {L : Locals} (h : Sim S L) {l : Line} (hl : LineIn g l) (hs : l.step S = some S') :
    ∃ L', (lineLet l).step g L = some L' ∧ Sim S' L' := by
  have fin : ∀ {i : Nat} {f : Bytes} {args : List Arg} {e : Expr Bytes}, callMeaning g L f args = some e → S' = S.set i e →
      ∃ L', (Let.mk (clo i) (.call f args)).step g L = some L' ∧ Sim S' L' := by
    intro i f args e h1 h2
    refine ⟨(clo i, .expr e) :: L, ?_, h2 ▸ h.set i e⟩
    simp [Let.step, clo_not_keyword, h1]
  have p2 : L.areParams [.var (utf8Of "user_state"), .var (utf8Of "context")] ["user_state", "context"] = true :=
    h.params (names := ["user_state", "context"]) (by decide)
  have p5 : L.areParams allParams ["user_state", "parent", "context", "source", "position"] = true :=
    h.params (names := ["user_state", "parent", "context", "source", "position"]) (by decide)
  cases l with
  | stringTerminal => cases hs
  | exec => cases hs
  | stringTerminalOptAscii i d =>
    simp only [Line.step] at hs
    obtain ⟨v, hv, hs⟩ := Option.bind_eq_some_iff.mp hs
    injection hs with hs
    refine fin (e := .stringTerminal v) ?_ hs.symm
    rw [core_call hg h (by decide +kernel)]
    have n1 : unaries.lookup (utf8Of "_string_terminal_opt_ascii") = none := by decide +kernel
    have n2 : binaries.lookup (utf8Of "_string_terminal_opt_ascii") = none := by decide +kernel
    simp [coreCall, n1, n2, -List.map_map, byteStr_toNat hv, hv]
  | matchRange i a b =>
    simp only [Line.step] at hs
    injection hs with hs
    refine fin (e := .matchRange a b) ?_ hs.symm
    rw [core_call hg h (by decide +kernel)]
    have n1 : unaries.lookup (utf8Of "_ordered_choice_match_range") = none := by decide +kernel
    have n2 : binaries.lookup (utf8Of "_ordered_choice_match_range") = none := by decide +kernel
    simp only [coreCall, n1, n2]
    rw [if_pos ⟨trivial, hl.1, hl.2⟩]
  | unary op i j =>
    simp only [Line.step] at hs
    obtain ⟨e, he, hs⟩ := Option.bind_eq_some_iff.mp hs
    injection hs with hs
    refine fin (e := op.mk e) ?_ hs.symm
    rw [core_call hg h (unary_head op)]
    simp [coreCall, unaries_unary, h.expr, he]
  | binary op i j k =>
    simp only [Line.step] at hs
    obtain ⟨a, ha, hs⟩ := Option.bind_eq_some_iff.mp hs
    obtain ⟨b, hb, hs⟩ := Option.bind_eq_some_iff.mp hs
    injection hs with hs
    refine fin (e := op.mk a b) ?_ hs.symm
    rw [core_call hg h (binary_head op)]
    simp [coreCall, unaries_binary, binaries_binary, h.expr, ha, hb]
  | hooked i nm j =>
    simp only [Line.step] at hs
    obtain ⟨e, he, hs⟩ := Option.bind_eq_some_iff.mp hs
    injection hs with hs
    refine fin (e := .hooked (asStr nm) e) ?_ hs.symm
    have h1 : L.lookup nm = none := h.free hl.1
    simp only [callMeaning, h1, Option.isSome_none, Bool.false_or]
    rw [if_neg (by simp [hl.2.2]), if_pos (by simp [hl.2.1])]
    simp only [allParams, List.cons_append, List.nil_append]
    have p5' := p5
    simp only [allParams] at p5'
    rw [p5']
    simp [h.expr, he]
  | terminal i s =>
    simp only [Line.step] at hs
    obtain ⟨v, hv, hs⟩ := Option.bind_eq_some_iff.mp hs
    injection hs with hs
    refine fin (e := .terminal v) ?_ hs.symm
    rw [core_call hg h (by decide +kernel)]
    have n1 : unaries.lookup (utf8Of "_terminal") = none := by decide +kernel
    have n2 : binaries.lookup (utf8Of "_terminal") = none := by decide +kernel
    simp [coreCall, n1, n2, hv]
  | varName i v f =>
    simp only [Line.step] at hs
    split at hs
    · next hv =>
      injection hs with hs
      refine fin (e := .varName f) ?_ hs.symm
      rw [core_call hg h (by decide +kernel)]
      have n1 : unaries.lookup (utf8Of "_var_name") = none := by decide +kernel
      have n2 : binaries.lookup (utf8Of "_var_name") = none := by decide +kernel
      have hr : g.rule L (.variant v) (.var f) = some f := by
        simp only [Names.rule]
        rw [if_pos (by simp [hl.1, h.isFn hl.2, hv])]
      simp only [coreCall, n1, n2]
      rw [if_pos ⟨trivial, p2⟩, hr]; rfl
    · cases hs
  | varNameLR i v f =>
    simp only [Line.step] at hs
    obtain ⟨inv, hi, hs⟩ := Option.bind_eq_some_iff.mp hs
    split at hs
    · next hv =>
      injection hs with hs
      refine fin (e := .varNameLR inv f) ?_ hs.symm
      rw [core_call hg h (by decide +kernel)]
      have n1 : unaries.lookup (utf8Of "_var_name_indirect_left_recursion") = none := by decide +kernel
      have n2 : binaries.lookup (utf8Of "_var_name_indirect_left_recursion") = none := by decide +kernel
      have hr : g.rule L (.variant v) (.var f) = some f := by
        simp only [Names.rule]
        rw [if_pos (by simp [hl.1, h.isFn hl.2, hv])]
      simp only [coreCall, n1, n2]
      rw [if_pos ⟨trivial, p2⟩, h.inv, hi]
      simp [hr]
    · cases hs
  | inlined i f =>
    simp only [Line.step] at hs
    injection hs with hs
    refine ⟨(clo i, .expr (.inlined f)) :: L, ?_, hs ▸ h.set i _⟩
    simp [lineLet, Let.step, clo_not_keyword, h.isFn hl, p5]
  | involvedSet vs =>
    simp only [Line.step] at hs
    injection hs with hs
    refine ⟨(utf8Of "involved_set", .set (vs.map lower)) :: L, ?_, hs ▸ h.setInv _⟩
    have n1 : utf8Of "involved_set" ∉ keywords := by decide +kernel
    have n2 : vs.all g.variants.contains = true := by
      rw [List.all_eq_true]; intro v hv; simp [hl v hv]
    show (if utf8Of "involved_set" ∈ keywords then none
      else if vs.all g.variants.contains = true then some ((utf8Of "involved_set", Val.set (vs.map lower)) :: L) else none) = _
    rw [if_neg n1, if_pos n2]

theorem exec_cons {S : Scope} {l : Line} {ls : List Line} {i : Nat} :
    execLines S (l :: ls ++ [.exec i]) = (l.step S).bind fun S => execLines S (ls ++ [.exec i]) := by
  rw [execLines_run]
  simp only [Gen.run, List.foldlM_cons]
  cases l.step S with
  | none => rfl
  | some S' => exact execLines_run.symm

theorem lines_meaning {g : Names} (hg : g.NoCore) {ls : List Line} {i : Nat} {e : Expr Bytes} (hl : ∀ l ∈ ls, LineIn g l) :
    ∀ {S : Scope} {L : Locals}, Sim S L → (∀ l ∈ ls, ∀ i, l ≠ .exec i) → execLines S (ls ++ [.exec i]) = some e →
      bodyMeaning g L (ls.map lineLet) (clo i) = some e := by
  induction ls with
  | nil =>
    intro S L h _ he
    simp only [List.nil_append, execLines] at he
    simp only [List.map_nil, bodyMeaning]
    have p3 : L.areParams ([utf8Of "parent", utf8Of "source", utf8Of "position"].map .var) ["parent", "source", "position"] = true :=
      h.params (names := ["parent", "source", "position"]) (by decide)
    rw [if_pos p3, h.expr, he]
  | cons l ls ih =>
    intro S L h hx he
    have he' : (l.step S).bind (fun S => execLines S (ls ++ [.exec i])) = some e := exec_cons.symm.trans he
    obtain ⟨S', h1, h2⟩ := Option.bind_eq_some_iff.mp he'
    obtain ⟨L', h3, h4⟩ := line_step hg h (hl l (by simp)) h1
    simp only [List.map_cons, bodyMeaning, h3]
    exact ih (fun x hx' => hl x (by simp [hx'])) h4 (fun x hx' => hx x (by simp [hx'])) h2

/-- If a body has a meaning, its literals are Rust literals. -/
theorem lines_literals {ls : List Line} {i : Nat} {e : Expr Bytes} : ∀ {S : Scope}, (∀ l ∈ ls, ∀ i, l ≠ .exec i) →
    execLines S (ls ++ [.exec i]) = some e → ∀ l ∈ ls, ∃ S S', l.step S = some S' := by
  induction ls with
  | nil => intro _ _ _ l hl; cases hl
  | cons l ls ih =>
    intro S hx he
    have he' : (l.step S).bind (fun S => execLines S (ls ++ [.exec i])) = some e := exec_cons.symm.trans he
    obtain ⟨S', h1, h2⟩ := Option.bind_eq_some_iff.mp he'
    intro x hx'
    rcases List.mem_cons.mp hx' with rfl | hx'
    · exact ⟨S, S', h1⟩
    · exact ih (fun y hy => hx y (by simp [hy])) h2 x hx'

end PP.Gen.Text
