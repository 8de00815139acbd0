import Verif.Lemmas.Mini.Check
import Verif.Lemmas.Mini.ReadFile
import Verif.Spec.Mini.Runnable
import Mathlib.Data.List.Perm.Subperm

/-! # Generated crates are programs of the executed fragment -/
namespace PP.Mini
open PP.Gen
open PP.Gen.Text (Tok lineToks lineLet clo LineOk LineIn Facts Texts Usable.enum namesOf funOf texts_good)

theorem lowerByte_idem (c : UInt8) : lowerByte (lowerByte c) = lowerByte c := by
  unfold lowerByte
  by_cases h : 65 ≤ c ∧ c ≤ 90
  · rw [if_pos h, if_neg]
    intro h'
    simp only [UInt8.le_iff_toNat_le] at h h'
    have h1 : (65 : UInt8).toNat = 65 := rfl
    have h2 : (90 : UInt8).toNat = 90 := rfl
    have h3 : (32 : UInt8).toNat = 32 := rfl
    have := UInt8.toNat_add c 32
    omega
  · rw [if_neg h, if_neg h]

theorem lower_idem (x : Bytes) : lower (lower x) = lower x := by simp [lower, lowerByte_idem]

theorem name_plain {x : Bytes} (h : IsName x) : Plain x := by
  cases x with
  | nil => exact h.elim
  | cons c cs =>
    have : ∀ d : UInt8, IsLetter d → d ≠ 0 := by
      rintro d hd rfl
      simp [IsLetter] at hd
    intro d hd
    rcases List.mem_cons.mp hd with rfl | hd
    · exact this _ h.1
    · rcases h.2 d hd with h | rfl
      · exact this _ h
      · decide

/-- A lower-case name that is no keyword is an ordinary word. -/
theorem name_word {x : Bytes} (h : IsName x) (hl : lower x = x) (hk : x ∉ Text.keywords) : Word x := by
  refine ⟨name_plain h, fun hs => ?_⟩
  have : ∀ y ∈ specials, y ∈ Text.keywords ∨ lower y ≠ y := by decide +kernel
  rcases this x hs with h' | h'
  · exact hk h'
  · exact h' hl

theorem op_word (op : Unary) : Word op.text := by cases op <;> exact ⟨by decide +kernel, by decide +kernel⟩
theorem op2_word (op : Binary) : Word op.text := by cases op <;> exact ⟨by decide +kernel, by decide +kernel⟩
theorem words : ∀ x ∈ ["_string_terminal_opt_ascii", "_ordered_choice_match_range", "_terminal", "_var_name", "_var_name_indirect_left_recursion",
    "user_state", "parent", "context", "source", "position", "involved_set"].map utf8Of, Plain x ∧ x ∉ specials := by decide +kernel
theorem word_of {x : String} (h : utf8Of x ∈ ["_string_terminal_opt_ascii", "_ordered_choice_match_range", "_terminal", "_var_name",
    "_var_name_indirect_left_recursion", "user_state", "parent", "context", "source", "position", "involved_set"].map utf8Of) : Word (utf8Of x) :=
  ⟨(words _ h).1, (words _ h).2⟩

theorem params_ok : ∀ a ∈ Text.allParams, ArgOk a := by
  simp only [Text.allParams, List.forall_mem_cons, ArgOk]
  exact ⟨word_of (by simp), word_of (by simp), word_of (by simp), word_of (by simp), word_of (by simp), by simp⟩

/-- The words of a line. -/
theorem line_wordy {names : Text.Names} {l : Line} (h : LineIn names l) (hok : LineOk l) (hne : ∀ i, l ≠ .exec i) (hh : ∀ x ∈ names.hooks, Word x)
    (hf : ∀ f ∈ names.fns, Word f) : Word (lineLet l).x ∧ RhsOk (lineLet l).rhs := by
  have ref : ∀ i, ArgOk (.ref (clo i)) := fun i => word_clo i
  cases l with
  | stringTerminal => exact hok.elim
  | exec i => exact (hne i rfl).elim
  | hooked i nm j =>
    refine ⟨word_clo i, hh nm h.2.1, fun a ha => ?_⟩
    rcases List.mem_append.mp ha with ha | ha
    · exact params_ok a ha
    · rw [List.mem_singleton.mp ha]; exact ref j
  | stringTerminalOptAscii i d => exact ⟨word_clo i, word_of (by simp), by simp [ArgOk]⟩
  | matchRange i a b => exact ⟨word_clo i, word_of (by simp), by simp [ArgOk]⟩
  | unary op i j => exact ⟨word_clo i, op_word op, by simpa using ref j⟩
  | binary op i j k => exact ⟨word_clo i, op2_word op, by simpa using ⟨ref j, ref k⟩⟩
  | terminal i s => exact ⟨word_clo i, word_of (by simp), by simp [ArgOk]⟩
  | varName i v f =>
    refine ⟨word_clo i, word_of (by simp), ?_⟩
    simp only [List.forall_mem_cons, ArgOk]
    exact ⟨word_of (by simp), trivial, word_of (by simp), hf f h.2.2.1, by simp⟩
  | involvedSet vs => exact ⟨word_of (by simp), trivial⟩
  | varNameLR i v f =>
    refine ⟨word_clo i, word_of (by simp), ?_⟩
    simp only [List.forall_mem_cons, ArgOk]
    exact ⟨word_of (by simp), word_of (by simp), trivial, word_of (by simp), hf f h.2.2.1, by simp⟩
  | inlined i f => exact ⟨word_clo i, hf f h.2.1, params_ok⟩

/-! ## Names of functions -/

theorem core_free : ∀ i ∈ Ast.core, ∀ f, i = .fn f → f.ty = none → ∃ x ∈ ["_and_predicate_kernel", "_and_predicate", "_not_predicate_kernel", "_not_predicate",
    "_one_or_more_kernel", "_one_or_more", "_optional_kernel", "_optional", "_ordered_choice_kernel", "_ordered_choice", "_sequence_kernel", "_sequence",
    "_subexpression_kernel", "_subexpression", "_terminal_kernel", "_terminal", "_zero_or_more_kernel", "_zero_or_more", "_string_terminal_kernel_ascii_opt",
    "_string_terminal_opt_ascii", "_ordered_choice_match_range_kernel", "_ordered_choice_match_range", "memoized_behaviour", "default_behaviour", "_var_name",
    "_var_name_kernel", "_var_name_indirect_left_recursion", "convert_vec_to_btree_set", "_var_name_kernel_growth_function", "should_go_into_growth_function",
    "_var_name_kernel_indirect_left_recursion", "parse"].map utf8Of, nameOf x = f.name := by
  have : Ast.core.all (fun i => match i with
    | .fn f => f.ty.isSome || ((["_and_predicate_kernel", "_and_predicate", "_not_predicate_kernel", "_not_predicate",
      "_one_or_more_kernel", "_one_or_more", "_optional_kernel", "_optional", "_ordered_choice_kernel", "_ordered_choice", "_sequence_kernel", "_sequence",
      "_subexpression_kernel", "_subexpression", "_terminal_kernel", "_terminal", "_zero_or_more_kernel", "_zero_or_more", "_string_terminal_kernel_ascii_opt",
      "_string_terminal_opt_ascii", "_ordered_choice_match_range_kernel", "_ordered_choice_match_range", "memoized_behaviour", "default_behaviour", "_var_name",
      "_var_name_kernel", "_var_name_indirect_left_recursion", "convert_vec_to_btree_set", "_var_name_kernel_growth_function", "should_go_into_growth_function",
      "_var_name_kernel_indirect_left_recursion", "parse"].map utf8Of).any fun x => nameOf x == f.name)
    | _ => true) = true := by decide +kernel
  rintro i hi f rfl ht
  have h := List.all_eq_true.mp this _ hi
  simp only [ht, Option.isSome_none, Bool.false_or, List.any_eq_true, beq_iff_eq] at h
  exact h

theorem free_plain : ∀ x ∈ ["_and_predicate_kernel", "_and_predicate", "_not_predicate_kernel", "_not_predicate",
    "_one_or_more_kernel", "_one_or_more", "_optional_kernel", "_optional", "_ordered_choice_kernel", "_ordered_choice", "_sequence_kernel", "_sequence",
    "_subexpression_kernel", "_subexpression", "_terminal_kernel", "_terminal", "_zero_or_more_kernel", "_zero_or_more", "_string_terminal_kernel_ascii_opt",
    "_string_terminal_opt_ascii", "_ordered_choice_match_range_kernel", "_ordered_choice_match_range", "memoized_behaviour", "default_behaviour", "_var_name",
    "_var_name_kernel", "_var_name_indirect_left_recursion", "convert_vec_to_btree_set", "_var_name_kernel_growth_function", "should_go_into_growth_function",
    "_var_name_kernel_indirect_left_recursion", "parse"].map utf8Of, Plain x ∧ (x ∈ coreFunctions ∨ x.head? = some 95) := by decide +kernel

theorem rule_free {f : Bytes} (h : IsName f) (hc : f ∉ coreFunctions) : Prog.fns Ast.core none (nameOf f) = [] := by
  unfold Prog.fns
  rw [List.filterMap_eq_nil_iff]
  intro i hi
  split
  · rename_i F
    rw [if_neg]
    rintro ⟨h1, h2⟩
    obtain ⟨x, hx, e⟩ := core_free _ hi F rfl h1
    obtain ⟨h3, h4⟩ := free_plain x hx
    obtain rfl := nameOf_inj h3 (name_plain h) (e.trans h2)
    rcases h4 with h4 | h4
    · exact hc h4
    · exact Text.underscore_not_name h4 h
  · rfl

/-- Names that are not in lower case. -/
theorem upper_ne {f : Bytes} (h : IsName f) (hl : lower f = f) {x : Bytes} (hx : Plain x) (hu : lower x ≠ x) : nameOf f ≠ nameOf x :=
  fun e => hu (nameOf_inj (name_plain h) hx e ▸ hl)

theorem units : ∀ x ∈ Ast.core, ∀ n, x = .unitStruct n → ∃ y ∈ ["UserState", "DirectLeftRecursionCache", "IndirectLeftRecursionCache",
    "DirectLeftRecursionPublisher", "IndirectLeftRecursionPublisher"].map utf8Of, nameOf y = n := by
  have : Ast.core.all (fun i => match i with
    | .unitStruct n => (["UserState", "DirectLeftRecursionCache", "IndirectLeftRecursionCache", "DirectLeftRecursionPublisher",
      "IndirectLeftRecursionPublisher"].map utf8Of).any fun x => nameOf x == n
    | _ => true) = true := by decide +kernel
  rintro i hi f rfl
  have h := List.all_eq_true.mp this _ hi
  simp only [List.any_eq_true, beq_iff_eq] at h
  exact h

theorem uppers : ∀ y ∈ ["UserState", "DirectLeftRecursionCache", "IndirectLeftRecursionCache",
    "DirectLeftRecursionPublisher", "IndirectLeftRecursionPublisher", "None", "Some", "Key", "RULES_SIZE"].map utf8Of, Plain y ∧ lower y ≠ y := by decide +kernel

theorem rule_unit {f : Bytes} (h : IsName f) (hl : lower f = f) : Prog.isUnit Ast.core (nameOf f) = false := by
  unfold Prog.isUnit
  rw [Bool.eq_false_iff]
  intro e
  obtain ⟨y, hy, e⟩ := units _ (List.contains_iff_mem.mp e) _ rfl
  obtain ⟨h1, h2⟩ := uppers y (by simp only [List.map_cons, List.map_nil, List.mem_cons] at hy ⊢; tauto)
  exact upper_ne h hl h1 h2 e.symm

theorem rule_upper {f : Bytes} (h : IsName f) (hl : lower f = f) : nameOf f ≠ n!"None" ∧ nameOf f ≠ n!"Some" ∧ nameOf f ≠ n!"Key" ∧
    nameOf f ≠ n!"RULES_SIZE" ∧ nameOf f ≠ n!"UserState" := by
  have e1 : nameOf (utf8Of "None") = n!"None" := by decide +kernel
  have e2 : nameOf (utf8Of "Some") = n!"Some" := by decide +kernel
  have e3 : nameOf (utf8Of "Key") = n!"Key" := by decide +kernel
  have e4 : nameOf (utf8Of "RULES_SIZE") = n!"RULES_SIZE" := by decide +kernel
  have e5 : nameOf (utf8Of "UserState") = n!"UserState" := by decide +kernel
  rw [← e1, ← e2, ← e3, ← e4, ← e5]
  have : ∀ x, utf8Of x ∈ ["UserState", "DirectLeftRecursionCache", "IndirectLeftRecursionCache",
    "DirectLeftRecursionPublisher", "IndirectLeftRecursionPublisher", "None", "Some", "Key", "RULES_SIZE"].map utf8Of → nameOf f ≠ nameOf (utf8Of x) :=
    fun x hx => upper_ne h hl (uppers _ hx).1 (uppers _ hx).2
  exact ⟨this _ (by simp), this _ (by simp), this _ (by simp), this _ (by simp), this _ (by simp)⟩

theorem plain_typed : plainItems.all (fun i => match i with | .fn f => f.ty.isSome | _ => true) = true := by decide +kernel

theorem plain_free (x : Name) : Prog.fns plainItems none x = [] := by
  have := plain_typed
  unfold Prog.fns
  rw [List.filterMap_eq_nil_iff]
  intro i hi
  have h := List.all_eq_true.mp this i hi
  split
  · rename_i f
    rw [if_neg]
    rintro ⟨h1, -⟩
    simp [h1] at h
  · rfl

/-! ## Closures, with rules by name -/

theorem rename_named {R : Type} {name : R → Bytes} {m : Bytes → R} : ∀ {e : Expr Bytes}, (∀ f ∈ e.mentions, name (m f) = f) →
    named name (e.rename m) = e := by
  intro e
  induction e with
  | andPredicate _ ih | notPredicate _ ih | oneOrMore _ ih | zeroOrMore _ ih | optional _ ih | subexpression _ ih | hooked _ _ ih =>
    intro h; simp only [Expr.rename, named, ih h]
  | orderedChoice a b iha ihb | sequence a b iha ihb =>
    intro h
    simp only [Expr.rename, named, iha fun f hf => h f (List.mem_append_left _ hf), ihb fun f hf => h f (List.mem_append_right _ hf)]
  | terminal | stringTerminal | matchRange => intro h; rfl
  | varName r | inlined r => intro h; simp only [Expr.rename, named, h r (by simp [Expr.mentions])]
  | varNameLR inv r =>
    intro h
    simp only [Expr.rename, named, h r (by simp [Expr.mentions]), List.map_map]
    congr 1
    conv => rhs; rw [← List.map_id inv]
    exact List.map_congr_left fun x hx => h x (by simp [Expr.mentions, hx])

section
variable {g : DGrammar} {c : GeneratedCode} {bs : List (List Line × Nat)}

theorem texts_fn {cx : Ctx} {names : Text.Names} (hg : names.NoCore) {rs ks bs} (h : Texts cx rs ks bs) (hl : ∀ b ∈ bs, ∀ l ∈ b.1, LineIn names l) :
    ∀ r ∈ rs, ∃ k ls i e, (k, (ls, i)) ∈ ks.zip bs ∧ k ∈ ks ∧ k.name = lower r.name ∧ r.rhs.meaning written cx.refs = some e ∧
      Text.bodyMeaning names .init (ls.map lineLet) (clo i) = some e ∧ execLines .empty k.lines = some e := by
  induction h with
  | nil => simp
  | @cons r k ls i e rs ks bs h1 h2 h3 h4 h5 _ ih =>
    intro r' hr
    rcases List.mem_cons.mp hr with rfl | hr
    · exact ⟨k, ls, i, e, by simp, by simp, h3, h5, Text.lines_meaning hg (hl (ls, i) (by simp)) .init h1.body h4, by rw [h1.lines, h4]⟩
    · obtain ⟨k', ls', i', e', a1, a2, a3⟩ := ih (fun b hb => hl b (by simp [hb])) r' hr
      exact ⟨k', ls', i', e', by simp [a1], by simp [a2], a3⟩

/-- Every name a rule mentions is that of a function. -/
theorem mentions_fn (F : Facts g c bs) (hu : g.Usable) {r : DRule} (hr : r ∈ g) {e : Expr Bytes} (he : r.rhs.meaning written g.ctx.refs = some e) :
    ∀ f ∈ e.mentions, f ∈ g.map fun d => lower d.name := by
  intro f hf
  have h1 := refs_of F.nd
  rcases rhs_mentions he f hf with ⟨z, hz, rfl⟩ | ⟨z, inv, hz, hfi⟩
  · rcases hu.declared r hr z hz with ⟨r', hr', e, _⟩ | ⟨r', hr', _, e⟩
    · exact List.mem_map.mpr ⟨r', hr', by rw [e]⟩
    · rw [← cap_spec, ← cap_spec] at e
      exact List.mem_map.mpr ⟨r', hr', Text.lower_of_cap e⟩
  · obtain ⟨y, hy, _, rfl⟩ := (h1.involved z inv hz f).mp hfi
    obtain ⟨d', hd', rfl⟩ := leftRecursive_declared hy
    exact List.mem_map_of_mem (f := fun d : DRule => lower d.name) hd'

theorem length_text (hw : g.WF) : g.length ≤ g.text.length := by
  induction g with
  | nil => simp
  | cons r g ih =>
    have := ih fun r' hr' => hw r' (by simp [hr'])
    have h1 : 0 < r.text.length := by
      unfold DRule.text
      simp only [List.length_append, List.length_cons]
      omega
    simp only [DGrammar.text, List.length_append, List.length_cons]
    omega

variable {ord : HashOrd} {n : Nat}

theorem codes_body {ks : List RuleCode} {bs : List (List Line × Nat)} (h : Text.CodesOk ks bs) : ∀ b ∈ bs, ∃ k, Text.CodeOk k b.1 b.2 := by
  induction h with
  | nil => simp
  | @cons k _ _ _ _ h1 _ ih =>
    intro b hb
    rcases List.mem_cons.mp hb with rfl | hb
    · exact ⟨k, h1⟩
    · exact ih b hb

theorem line_mono {a b : Text.Names} (hv : ∀ v ∈ a.variants, v ∈ b.variants) (hf : a.fns = b.fns) (hh : ∀ x ∈ a.hooks, x ∈ b.hooks)
    (hd : ∀ x ∈ b.fns, x ∉ b.hooks) {l : Line} (h : LineIn a l) : LineIn b l := by
  have call : ∀ f, a.Callable f → b.Callable f := fun f h => ⟨h.1, hf ▸ h.2.1, hd f (hf ▸ h.2.1)⟩
  cases l with
  | hooked i nm j => exact ⟨h.1, hh _ h.2.1, hf ▸ h.2.2⟩
  | varName i v f | varNameLR i v f => exact ⟨hv v h.1, call f h.2⟩
  | involvedSet vs => exact fun v hv' => hv v (h v hv')
  | inlined i f => exact call f h
  | matchRange => exact h
  | _ => trivial

theorem generated_crate_with {hs : List Bytes} {items : Prog} (hhs : ∀ x ∈ hs, IsName x ∧ Word x) (hw : g.WF) (hsm : g.text.length < 82000000)
    (h : generateParser ord n g.text = .ok (.code c)) (hf : ∀ r ∈ g, r.rhs.Faithful) (hr : g.RunnableWith hs)
    (hi : ∀ r ∈ g, Prog.fns items none (nameOf (lower r.name)) = []) :
    ∃ (body : g.Fn → Expr g.Fn) (funs : List Text.Fun), Links c body Subtype.val ∧
      readFile (Run.rulesFile c) = some (rulesItems c.variants) ∧ readFile (Run.parserFile c) = some (parserItems false funs) ∧
      NamesOK items c.variants funs ∧ ∀ {R U : Type} (P : Parser R U) (name : R → Bytes), (∀ r s, name r = name s → r = s) →
        (∀ r, ∃ f : g.Fn, f.1 = name r ∧ named name (P.body r) = named Subtype.val (body f)) → name P.grammar = utf8Of "grammar" →
        Rules hs c.variants funs name (fun r => variantOf c.variants (name r)) P := by
  obtain ⟨bs, F⟩ := Text.facts hw hsm h hf
  obtain ⟨_, _, _, hnum⟩ := output_ok (gen_code hw hsm h)
  have hu := hr.usable
  have hooks : ∀ x ∈ c.hookImports, x ∈ hs := by
    intro x hx
    rw [F.hooks] at hx
    obtain ⟨r, hr', hv⟩ := Text.mem_hooks.mp hx
    exact hr.hooks r hr' x hv
  have hname : ∀ f ∈ g.map (fun d => lower d.name), IsName f ∧ lower f = f ∧ f ∉ Text.keywords ∧ f ∉ coreFunctions ∧ f ∉ hs ∧
      Prog.fns items none (nameOf f) = [] := by
    intro f hf
    obtain ⟨d, hd, rfl⟩ := List.mem_map.mp hf
    exact ⟨Text.name_lower (hw d hd).1, lower_idem _, lower_spec d.name ▸ hu.ruleWords d hd, lower_spec d.name ▸ (hr.free d hd).1,
      lower_spec d.name ▸ (hr.free d hd).2, hi d hd⟩
  have hline : ∀ b ∈ bs, ∀ l ∈ b.1, LineIn ⟨c.variants, hs, g.map fun r => lower r.name⟩ l := by
    intro b hb l hl
    obtain ⟨r, hr', hg⟩ := (texts_good F.texts).1 b hb
    refine line_mono (a := namesOf g c) (b := ⟨c.variants, hs, g.map fun r => lower r.name⟩) (fun _ h => h) rfl hooks (fun x hx => (hname x hx).2.2.2.2.1) (Text.Usable.line F hu hr.noSet hr' (hg.src l hl))
  have hno : Text.Names.NoCore ⟨c.variants, hs, g.map fun r => lower r.name⟩ := by
    intro x hx
    rcases List.mem_append.mp hx with hx | hx
    · exact (hname x hx).1
    · exact (hhs x hx).1
  have hcodes := F.texts.codes
  have hbs := codes_body hcodes
  have hword : ∀ b ∈ bs, Wordy (b.1.map lineLet) := by
    intro b hb
    obtain ⟨k, hk⟩ := hbs b hb
    refine ⟨fun l' hl' => ?_⟩
    obtain ⟨l, hl, rfl⟩ := List.mem_map.mp hl'
    exact line_wordy (hline b hb l hl) (hk.ok l hl) (hk.body l hl) (fun x hx => (hhs x hx).2)
      fun f hf => name_word (hname f hf).1 (hname f hf).2.1 (hname f hf).2.2.1
  have hnames : ((c.rules.zip bs).map funOf).map Text.Fun.name = g.map fun r => lower r.name := by
    rw [← F.texts.fns (hooks := []), Text.funs_items]
  have henum := Text.Usable.enum F hu
  have hvs : ∀ v ∈ c.variants, IsName v := fun v hv => by
    obtain ⟨r, hr, _, rfl⟩ := (F.variants v).mp hv
    exact Text.name_cap (hw r hr).1
  -- bodies
  have hbody : ∀ r : g.Fn, ∃ a : Expr g.Fn, ∃ k ls i e, (k, (ls, i)) ∈ c.rules.zip bs ∧ k ∈ c.rules ∧ k.name = r.1 ∧ named Subtype.val a = e ∧
      Agrees Subtype.val a e ∧ Text.bodyMeaning ⟨c.variants, hs, g.map fun r => lower r.name⟩ .init (ls.map lineLet) (clo i) = some e ∧
      execLines .empty k.lines = some e := by
    rintro ⟨f, hf'⟩
    obtain ⟨d, hd, rfl⟩ := List.mem_map.mp hf'
    obtain ⟨k, ls, i, e, a1, a2, a3, a4, a5, a6⟩ := texts_fn hno F.texts hline d hd
    have hm := mentions_fn F hu hd a4
    have hm' : ∀ f ∈ e.mentions, ((if h : f ∈ g.map (fun d => lower d.name) then ⟨f, h⟩ else ⟨_, hf'⟩ : g.Fn)).1 = f := by
      intro f hf
      rw [dif_pos (hm f hf)]
    exact ⟨e.rename fun f => if h : f ∈ g.map (fun d => lower d.name) then ⟨f, h⟩ else ⟨_, hf'⟩, k, ls, i, e, a1, a2, a3, rename_named hm',
      rename_agrees hm', a5, a6⟩
  choose body hb using hbody
  have ok : NamesOK items c.variants ((c.rules.zip bs).map funOf) := by
    refine ⟨fun v hv => ⟨name_plain (hvs v hv), fun e => ?_⟩, ?_, ?_, henum.1, ?_⟩
    · have := hvs v hv
      cases v with
      | nil => cases e
      | cons a v =>
        injection e with e
        subst e
        exact absurd this.1 (by simp [IsLetter])
    · have h1 : (c.variants.map lower).length ≤ (g.map fun r => lower r.name).length := by
        refine (List.subperm_of_subset henum.1 fun x hx => ?_).length_le
        obtain ⟨v, hv, rfl⟩ := List.mem_map.mp hx
        obtain ⟨r, hr, _, rfl⟩ := (F.variants v).mp hv
        exact List.mem_map.mpr ⟨r, hr, (lower_cap _).symm⟩
      have h2 := length_text hw
      simp only [List.length_map] at h1
      omega
    · rw [hnames]; exact Text.nodup_names.mpr hu.rules
    · intro f hf'
      have hm : f.name ∈ g.map fun r => lower r.name := hnames ▸ List.mem_map_of_mem hf'
      obtain ⟨h1, h2, h3, h4, -, h6⟩ := hname _ hm
      refine ⟨name_plain h1, fun s hs => ?_, rule_free h1 h4, rule_unit h1 h2, ?_⟩
      obtain ⟨y, hy, rfl⟩ := List.mem_map.mp hf'
      have := List.of_mem_zip (a := y.1) (b := y.2) (by simpa using hy)
      · exact ((hword y.2 this.2).lets s hs).1.plain
      · obtain ⟨a, b, c, d, e⟩ := rule_upper h1 h2
        exact ⟨a, b, c, d, e, h6⟩
  refine ⟨body, (c.rules.zip bs).map funOf, ⟨?_, fun r s h => Subtype.ext h, fun k hk => ?_, fun r => ?_⟩,
    rules_items (fun v hv => Text.name_ident (hvs v hv)) hnum,
    parser_items hcodes (fun v hv => Text.name_ident (hhs v (hooks v hv)).1) hword, ok,
    fun P name inj hP hs => variantOf_rules ok inj (fun r => ?_) hs ?_⟩
  · rw [F.texts.names]; exact Text.nodup_names.mpr hu.rules
  · have : k.name ∈ g.map fun r => lower r.name := F.texts.names ▸ List.mem_map_of_mem hk
    exact ⟨⟨_, this⟩, rfl⟩
  · obtain ⟨k, ls, i, e, a1, a2, a3, a4, a5, a6, a7⟩ := hb r
    exact ⟨k, a2, a3, e, a7, a5⟩
  · obtain ⟨f, e1, e2⟩ := hP r
    obtain ⟨k, ls, i, e, a1, a2, a3, a4, a5, a6, a7⟩ := hb f
    exact ⟨funOf (k, (ls, i)), List.mem_map_of_mem a1, a3.trans e1, by rw [hnames]; simp only [funOf, a6, ← a4, e2]⟩
  · obtain ⟨r, hr', h1, h2⟩ := hr.start
    exact (F.variants _).mpr ⟨r, hr', h1, by rw [cap_spec, h2]⟩

theorem agrees_named {R : Type} {name : R → Bytes} : ∀ {a : Expr R} {e : Expr Bytes}, a.LRFree → Agrees name a e → named name a = e := by
  intro a
  induction a with
  | andPredicate _ ih | notPredicate _ ih | oneOrMore _ ih | zeroOrMore _ ih | optional _ ih | subexpression _ ih =>
    intro e hl h; cases e <;> first | exact h.elim | (simp only [named, ih hl h])
  | hooked _ _ ih => intro e hl h; cases e <;> first | exact h.elim | (simp only [named, h.1, ih hl h.2])
  | orderedChoice a b iha ihb | sequence a b iha ihb =>
    intro e hl h; cases e <;> first | exact h.elim | (simp only [named, iha hl.1 h.1, ihb hl.2 h.2])
  | terminal | stringTerminal | varName r | inlined r =>
    intro e hl h; cases e <;> first | exact h.elim | (simp only [named, show _ = _ from h])
  | matchRange => intro e hl h; cases e <;> first | exact h.elim | (simp only [named, h.1, h.2])
  | varNameLR => intro e hl h; exact hl.elim

theorem agrees_lrFree {R S : Type} {name : R → Bytes} {name' : S → Bytes} : ∀ {a : Expr R} {b : Expr S} {e : Expr Bytes}, a.LRFree → Agrees name a e →
    Agrees name' b e → b.LRFree := by
  intro a
  induction a with
  | andPredicate _ ih | notPredicate _ ih | oneOrMore _ ih | zeroOrMore _ ih | optional _ ih | subexpression _ ih =>
    intro b e hl h h'; cases e <;> first | exact h.elim | (cases b <;> first | exact h'.elim | (simp only [Agrees] at h'; have := ih hl h h'; exact this))
  | hooked _ _ ih => intro b e hl h h'; cases e <;> first | exact h.elim | (cases b <;> first | exact h'.elim | (simp only [Agrees] at h'; have := ih hl h.2 h'.2; exact this))
  | orderedChoice a b iha ihb | sequence a b iha ihb =>
    intro b e hl h h'; cases e <;> first | exact h.elim | (cases b <;> first | exact h'.elim | (simp only [Agrees] at h'; have h1 := iha hl.1 h.1 h'.1; have h2 := ihb hl.2 h.2 h'.2; exact ⟨h1, h2⟩))
  | terminal | stringTerminal | varName r | inlined r | matchRange =>
    intro b e hl h h'; cases e <;> first | exact h.elim | (cases b <;> first | exact h'.elim | trivial)
  | varNameLR => intro b e hl h; exact hl.elim

/-- Two ways of linking the same code. -/
theorem links_named {R S : Type} {body : R → Expr R} {name : R → Bytes} {body' : S → Expr S} {name' : S → Bytes} (h : Links c body name)
    (h' : Links c body' name') (hl : ∀ r, (body r).LRFree) (r : R) : ∃ f, name' f = name r ∧ named name (body r) = named name' (body' f) := by
  obtain ⟨k, hk, e1, e, he, ha⟩ := h.fn r
  obtain ⟨f, hf⟩ := h'.all k hk
  obtain ⟨k', hk', e1', e', he', ha'⟩ := h'.fn f
  obtain rfl := nodup_inj h.nodup hk hk' (hf.symm.trans e1'.symm)
  obtain rfl := Option.some.inj (he.symm.trans he')
  exact ⟨f, hf.trans e1, (agrees_named (hl r) ha).trans (agrees_named (agrees_lrFree (hl r) ha ha') ha').symm⟩

theorem runnable_with (hr : g.Runnable) : g.RunnableWith [] :=
  ⟨hr.usable, hr.noSet, fun r h x hx => absurd hx (by simp [hr.hooks r h]), hr.start, fun r h => ⟨hr.free r h, by simp⟩⟩

theorem generated_crate (hw : g.WF) (hsm : g.text.length < 82000000) (h : generateParser ord n g.text = .ok (.code c))
    (hf : ∀ r ∈ g, r.rhs.Faithful) (hr : g.Runnable) : ∃ (body : g.Fn → Expr g.Fn) (funs : List Text.Fun), Links c body Subtype.val ∧
      readFile (Run.rulesFile c) = some (rulesItems c.variants) ∧ readFile (Run.parserFile c) = some (parserItems false funs) ∧
      NamesOK plainItems c.variants funs ∧ ∀ start : g.Fn, start.1 = utf8Of "grammar" →
        Rules [] c.variants funs Subtype.val (fun r => variantOf c.variants r.1) (.plain body start) := by
  obtain ⟨body, funs, h1, h2, h3, h4, h5⟩ := generated_crate_with (hs := []) (items := plainItems) (by simp) hw hsm h hf (runnable_with hr) fun r _ => plain_free _
  exact ⟨body, funs, h1, h2, h3, h4, fun start hs => h5 _ _ (fun r s h => Subtype.ext h) (fun r => ⟨r, rfl, rfl⟩) hs⟩

end

end PP.Mini
