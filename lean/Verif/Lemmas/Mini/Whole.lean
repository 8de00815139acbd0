import Verif.Lemmas.Mini.Crate
import Verif.Lemmas.Mini.Parse
import Verif.Spec.Mini.Crate

/-! # A whole crate -/
namespace PP.Mini
open PP.Gen

/-- `impl From<u32> for Rules`, which no parse calls. -/
def fromFn : Fn :=
  ⟨some n!"Rules", n!"from", .none, [n!"i"], some (.block (.letS (.var n!"element") false (.call (.path [n!"num", n!"FromPrimitive", n!"from_u32"])
    (.cons (.path [n!"i"]) .nil)) (.tail (.mtch (.path [n!"element"]) (.cons (.some n!"rule") (.path [n!"rule"]) (.cons .none
      (.mac n!"panic" (.cons (.str n!"Not a valid Rule") .nil)) .nil))))))⟩

/-- `rules.rs` -/
def rulesItems (vs : List Bytes) : List Item := [.fn fromFn, .const n!"RULES_SIZE" vs.length, .enum n!"Rules" (vs.map nameOf)]
/-- `parser.rs` -/
def parserItems (br : Bool) (funs : List Text.Fun) : List Item := funs.map fun f => .fn (fnOf br f)

/-- The items that the user writes are none that the core uses. -/
structure UserOK (items : Prog) (hooks : List Bytes) : Prop where
  fn : ∀ f, Item.fn f ∈ items → Prog.fns Ast.core f.ty f.name = [] ∧ f.ty ≠ some n!"Rules"
  tuple : ∀ x, Item.tupleStruct x ∈ items → x = n!"UserState"
  unit : ∀ x, Item.unitStruct x ∈ items → x = n!"UserState"
  const : ∀ x k, Item.const x k ∉ items
  hooks : ∀ x ∈ hooks, Plain x ∧ nameOf x ≠ n!"Some" ∧ nameOf x ≠ n!"Key" ∧ nameOf x ≠ n!"UserState"

def userItemOK : Item → Bool
  | .fn f => decide (Prog.fns Ast.core f.ty f.name = []) && decide (f.ty ≠ some n!"Rules")
  | .tupleStruct x => decide (x = n!"UserState")
  | .unitStruct x => decide (x = n!"UserState")
  | .const _ _ => false
  | .enum _ _ => true
def userOK (items : Prog) (hooks : List Bytes) : Bool := items.all userItemOK &&
  decide (∀ x ∈ hooks, Plain x ∧ nameOf x ≠ n!"Some" ∧ nameOf x ≠ n!"Key" ∧ nameOf x ≠ n!"UserState")

theorem userOK_ok {items : Prog} {hooks : List Bytes} (h : userOK items hooks = true) : UserOK items hooks := by
  simp only [userOK, Bool.and_eq_true, decide_eq_true_eq, List.all_eq_true] at h
  obtain ⟨h, hh⟩ := h
  refine ⟨fun f hf => by simpa [userItemOK] using h _ hf, fun x hx => by simpa [userItemOK] using h _ hx, fun x hx => by simpa [userItemOK] using h _ hx,
    fun x k hx => by simpa [userItemOK] using h _ hx, hh⟩

/-- The names of a crate's rules are none that the core or the user's part uses. -/
structure NamesOK (items : Prog) (vs : List Bytes) (funs : List Text.Fun) : Prop where
  plain : ∀ v ∈ vs, Plain v ∧ v.head? ≠ some 1
  size : vs.length ≤ 4294967296
  nodup : (funs.map Text.Fun.name).Nodup
  uniq : (vs.map lower).Nodup
  fns : ∀ f ∈ funs, Plain f.name ∧ (∀ s ∈ f.lets, Plain s.x) ∧ Prog.fns Ast.core none (nameOf f.name) = [] ∧ Prog.isUnit Ast.core (nameOf f.name) = false ∧
    nameOf f.name ≠ n!"None" ∧ nameOf f.name ≠ n!"Some" ∧ nameOf f.name ≠ n!"Key" ∧ nameOf f.name ≠ n!"RULES_SIZE" ∧ nameOf f.name ≠ n!"UserState" ∧
    Prog.fns items none (nameOf f.name) = []

def namesOK (items : Prog) (vs : List Bytes) (funs : List Text.Fun) : Bool :=
  decide (∀ v ∈ vs, Plain v ∧ v.head? ≠ some 1) && decide (vs.length ≤ 4294967296) && decide (funs.map Text.Fun.name).Nodup && decide (vs.map lower).Nodup &&
  decide (∀ f ∈ funs, Plain f.name ∧ (∀ s ∈ f.lets, Plain s.x) ∧ Prog.fns Ast.core none (nameOf f.name) = [] ∧ Prog.isUnit Ast.core (nameOf f.name) = false ∧
    nameOf f.name ≠ n!"None" ∧ nameOf f.name ≠ n!"Some" ∧ nameOf f.name ≠ n!"Key" ∧ nameOf f.name ≠ n!"RULES_SIZE" ∧ nameOf f.name ≠ n!"UserState" ∧
    Prog.fns items none (nameOf f.name) = [])

theorem namesOK_ok {items : Prog} {vs : List Bytes} {funs : List Text.Fun} (h : namesOK items vs funs = true) : NamesOK items vs funs := by
  simp only [namesOK, Bool.and_eq_true, decide_eq_true_eq] at h
  exact ⟨h.1.1.1.1, h.1.1.1.2, h.1.1.2, h.1.2, h.2⟩

abbrev genOf (br : Bool) (vs : List Bytes) (funs : List Text.Fun) : Prog := rulesItems vs ++ parserItems br funs

theorem genOf_fns_none (br : Bool) (vs : List Bytes) (funs : List Text.Fun) (x : Name) :
    (genOf br vs funs).fns none x = (funs.filter fun f => nameOf f.name = x).map (fnOf br) := by
  have : ∀ funs : List Text.Fun, Prog.fns (parserItems br funs) none x = (funs.filter fun f => nameOf f.name = x).map (fnOf br) := by
    intro funs
    induction funs with
    | nil => rfl
    | cons f funs ih =>
      simp only [parserItems, List.map_cons, Prog.fns, List.filterMap_cons, fnOf, true_and] at ih ⊢
      by_cases h : nameOf f.name = x
      · simp only [h, if_true, List.filter_cons, decide_true, List.map_cons, ih, fnOf]
      · simp only [h, if_false, List.filter_cons, decide_false, Bool.false_eq_true, ih]
  rw [fns_append, this]
  rfl

theorem genOf_fns_some (br : Bool) (vs : List Bytes) (funs : List Text.Fun) (t x : Name) (h : t ≠ n!"Rules") : (genOf br vs funs).fns (some t) x = [] := by
  have : ∀ funs : List Text.Fun, Prog.fns (parserItems br funs) (some t) x = [] := by
    intro funs
    induction funs with
    | nil => rfl
    | cons f funs ih =>
      simp only [parserItems, List.map_cons, Prog.fns, List.filterMap_cons, fnOf, reduceCtorEq, false_and, if_false] at ih ⊢
      exact ih
  rw [fns_append, this]
  simp [Prog.fns, rulesItems, fromFn, Ne.symm h]

theorem core_ne : ∀ x ∈ coreNames, Prog.fns Ast.core x.1 x.2 ≠ [] := by decide +kernel
theorem core_rules : ∀ x ∈ coreNames, x.1 ≠ some n!"Rules" := by decide +kernel

theorem gen_const (br : Bool) (vs : List Bytes) (funs : List Text.Fun) (x : Name) :
    (genOf br vs funs).const? x = if n!"RULES_SIZE" = x then some vs.length else none := by
  have : ∀ funs : List Text.Fun, Prog.const? (parserItems br funs) x = none := by
    intro funs
    simp [parserItems, Prog.const?, List.findSome?_eq_none_iff]
  simp only [Prog.const?] at this ⊢
  rw [List.findSome?_append, this]
  by_cases e : n!"RULES_SIZE" = x <;> simp [rulesItems, List.findSome?, e]

section
variable {items : Prog} {hooks : List Bytes} (hu : UserOK items hooks)
include hu

theorem UserOK.fns_nil {ty : Option Name} {x : Name} (h : Prog.fns Ast.core ty x ≠ []) : items.fns ty x = [] := by
  rw [Prog.fns, List.filterMap_eq_nil_iff]
  intro i hi
  split
  · rename_i f
    rw [if_neg]
    rintro ⟨rfl, rfl⟩
    exact h (hu.fn f hi).1
  · rfl

theorem UserOK.const_none (x : Name) : items.const? x = none := by
  unfold Prog.const?
  rw [List.findSome?_eq_none_iff]
  intro i hi
  split
  · exact absurd hi (hu.const _ _)
  · rfl

theorem UserOK.not_tuple {x : Name} (h : x ≠ n!"UserState") : items.isTuple x = false := by
  rw [Prog.isTuple, Bool.eq_false_iff]
  intro hc
  exact h (hu.tuple x (List.contains_iff_mem.mp hc))

theorem UserOK.not_unit {x : Name} (h : x ≠ n!"UserState") : items.isUnit x = false := by
  rw [Prog.isUnit, Bool.eq_false_iff]
  intro hc
  exact h (hu.unit x (List.contains_iff_mem.mp hc))

theorem UserOK.rules_nil {x : Name} : items.fns (some n!"Rules") x = [] := by
  rw [Prog.fns, List.filterMap_eq_nil_iff]
  intro i hi
  split
  · rename_i f
    rw [if_neg]
    rintro ⟨h, -⟩
    exact (hu.fn f hi).2 h
  · rfl

theorem hasCoreGen {vs : List Bytes} {funs : List Text.Fun} (h : NamesOK items vs funs) : HasCore (Ast.core ++ (items ++ genOf br vs funs)) := by
  refine hasCore ?_ ?_
  · rintro ⟨ty, x⟩ hx
    rw [fns_append, hu.fns_nil (core_ne _ hx), List.nil_append]
    cases ty with
    | some t => exact genOf_fns_some br vs funs t x fun e => core_rules _ hx (by rw [e])
    | none =>
      rw [genOf_fns_none]
      simp only [List.map_eq_nil_iff, List.filter_eq_nil_iff, decide_eq_true_eq]
      intro f hf e
      exact core_ne _ hx (e ▸ (h.fns f hf).2.2.1)
  · intro x hx
    have := hu.not_tuple hx
    simp only [Prog.isTuple, List.contains_eq_any_beq, List.any_append, Bool.or_eq_false_iff] at this ⊢
    exact ⟨this, by simp [rulesItems, parserItems]⟩
end

theorem core_const (x : Name) : Prog.const? Ast.core x = none := by
  have : ∀ i ∈ Ast.core, ∀ y k, i ≠ .const y k := by
    have h : Ast.core.all (fun i => match i with | .const _ _ => false | _ => true) = true := by decide +kernel
    intro i hi y k e
    have := List.all_eq_true.mp h i hi
    subst e; cases this
  unfold Prog.const?
  rw [List.findSome?_eq_none_iff]
  intro i hi
  split
  · exact absurd rfl (this _ hi _ _)
  · rfl

theorem filter_unique {α : Type} {p : α → Bool} {a : α} : ∀ {l : List α}, a ∈ l → l.Nodup → (∀ b ∈ l, p b = true ↔ b = a) → l.filter p = [a]
  | b :: l, hm, hn, hp => by
    rw [List.nodup_cons] at hn
    by_cases h : b = a
    · subst h
      rw [List.filter_cons, if_pos ((hp b (by simp)).mpr rfl)]
      congr 1
      rw [List.filter_eq_nil_iff]
      intro c hc hpc
      exact hn.1 ((hp c (by simp [hc])).mp hpc ▸ hc)
    · rw [List.filter_cons, if_neg (fun e => h ((hp b (by simp)).mp e))]
      rcases List.mem_cons.mp hm with rfl | hm
      · exact absurd rfl h
      · exact filter_unique hm hn.2 fun c hc => hp c (by simp [hc])

theorem nodup_inj {α β : Type} {f : α → β} : ∀ {l : List α}, (l.map f).Nodup → ∀ {a b : α}, a ∈ l → b ∈ l → f a = f b → a = b
  | c :: l, hn, a, b, ha, hb, e => by
    rw [List.map_cons, List.nodup_cons] at hn
    rcases List.mem_cons.mp ha with rfl | ha' <;> rcases List.mem_cons.mp hb with rfl | hb'
    · rfl
    · exact absurd (e ▸ List.mem_map_of_mem hb') hn.1
    · exact absurd (e ▸ List.mem_map_of_mem ha') hn.1
    · exact nodup_inj hn.2 ha' hb' e

section
variable {R U : Type} [DecidableEq R] {us : User U} {vs : List Bytes} {funs : List Text.Fun} {name var : R → Bytes} {P : Parser R U}

/-- The model's rules, and the functions of a file. -/
structure Rules (hooks : List Bytes) (vs : List Bytes) (funs : List Text.Fun) (name var : R → Bytes) (P : Parser R U) : Prop where
  inj : ∀ r s, name r = name s → r = s
  vinj : ∀ r s, var r = var s → r = s
  plain : ∀ r, Plain (var r)
  low : ∀ r, ∀ v ∈ vs, lower v = name r → v = var r
  fns : ∀ r, ∃ f ∈ funs, f.name = name r ∧
    Text.bodyMeaning ⟨vs, hooks, funs.map Text.Fun.name⟩ .init f.lets f.tail = some (named name (P.body r))
  start : name P.grammar = utf8Of "grammar"
  mem : utf8Of "Grammar" ∈ vs

/-- A program with the user's part. -/
structure HasUser (items : Prog) (Q : Prog) : Prop where
  fn : ∀ ty x f, items.fn? ty x = some f → Q.fn? ty x = some f
  tuple : Q.isTuple n!"UserState" = items.isTuple n!"UserState"
  unit : Q.isUnit n!"UserState" = items.isUnit n!"UserState"
  const : Q.const? n!"UserState" = none

/-- The user's part does what the model says. -/
structure UserSim (us : User U) (P : Parser R U) : Prop where
  ok : UserOK us.items us.hooks
  hooks : ∀ W : World R U, HasUser us.items W.Q → W.ur = us.ur → HooksOK W us P
  new : ∀ (W : World R U) n h, HasUser us.items W.Q → run W.Q (n + 1) (.fn (some n!"UserState") n!"new") [] h = .ok us.init h
  init : us.ur P.userInit us.init

/-- The crate's program. -/
abbrev progOf (us : User U) (br : Bool) (vs : List Bytes) (funs : List Text.Fun) : Prog := Ast.core ++ (us.items ++ genOf br vs funs)

theorem prog_const (hu : UserOK us.items us.hooks) (x : Name) : (progOf us br vs funs).const? x = if n!"RULES_SIZE" = x then some vs.length else none := by
  have e := core_const x
  have e' := hu.const_none x
  have e'' := gen_const br vs funs x
  simp only [Prog.const?, List.findSome?_append] at e e' e'' ⊢
  rw [e, e', e'']; rfl

theorem hasUser (hu : UserOK us.items us.hooks) (h : NamesOK us.items vs funs) : HasUser us.items (progOf us br vs funs) where
  fn ty x f e := by
    have hl : us.items.fns ty x = [f] := by
      unfold Prog.fn? at e
      split at e
      · rename_i g hg; obtain rfl := Option.some.inj e; exact hg
      · cases e
    have hm : Item.fn f ∈ us.items ∧ f.ty = ty ∧ f.name = x := by
      have : f ∈ us.items.fns ty x := by rw [hl]; simp
      obtain ⟨i, hi, hi'⟩ := List.mem_filterMap.mp this
      split at hi'
      · split at hi'
        · rename_i hh; obtain rfl := Option.some.inj hi'; exact ⟨hi, hh.1, hh.2⟩
        · cases hi'
      · cases hi'
    obtain ⟨hm, rfl, rfl⟩ := hm
    have hc := (hu.fn f hm).1
    have hg : (genOf br vs funs).fns f.ty f.name = [] := by
      cases ht : f.ty with
      | some t => exact genOf_fns_some br vs funs t _ fun e => (hu.fn f hm).2 (by rw [ht, e])
      | none =>
        rw [genOf_fns_none]
        simp only [List.map_eq_nil_iff, List.filter_eq_nil_iff, decide_eq_true_eq]
        intro g hg e
        have := (h.fns g hg).2.2.2.2.2.2.2.2.2
        rw [e, ← ht, hl] at this
        cases this
    simp only [Prog.fn?, progOf, fns_append, hc, hg, hl, List.nil_append, List.append_nil]
  tuple := by
    have e : Prog.isTuple Ast.core n!"UserState" = false := by decide +kernel
    simp only [Prog.isTuple, List.contains_append] at e ⊢
    rw [e]
    simp [rulesItems, parserItems]
  unit := by
    have e : Prog.isUnit Ast.core n!"UserState" = false := by decide +kernel
    simp only [Prog.isUnit, List.contains_append] at e ⊢
    rw [e]
    simp [rulesItems, parserItems]
  const := by rw [prog_const hu]; rfl

/-- The world in which the crate's `parse` runs. -/
def worldOf (br : Bool) (hu : UserOK us.items us.hooks) (h : NamesOK us.items vs funs) (r : Rules us.hooks vs funs name var P) (input : Bytes) : World R U where
  Q := progOf us br vs funs
  core := hasCoreGen hu h
  vn r := nameOf (var r)
  inj a b e := r.vinj a b (nameOf_inj (r.plain a) (r.plain b) e)
  ur := us.ur
  a := 1
  u := 2
  ne := by decide
  src := ⟨input⟩

omit [DecidableEq R] in
theorem prog_fn (h : NamesOK us.items vs funs) {f : Text.Fun} (hf : f ∈ funs) :
    (progOf us br vs funs).fn? none (nameOf f.name) = some (fnOf br f) := by
  have e : (funs.filter fun g => nameOf g.name = nameOf f.name) = [f] := by
    have hn := h.nodup
    refine filter_unique hf (List.Pairwise.of_map _ (fun _ _ h e => h (congrArg _ e)) hn) fun g hg => ?_
    simp only [decide_eq_true_eq]
    constructor
    · intro e
      have e' := nameOf_inj (h.fns g hg).1 (h.fns f hf).1 e
      exact nodup_inj hn hg hf e'
    · rintro rfl; rfl
  obtain ⟨-, -, h3, -, -, -, -, -, -, h10⟩ := h.fns f hf
  simp only [Prog.fn?, progOf, fns_append Ast.core, fns_append us.items, genOf_fns_none, e, h3, h10, List.nil_append, List.map_cons, List.map_nil]

omit [DecidableEq R] in
theorem world_crate (hu : UserSim us P) (h : NamesOK us.items vs funs) (r : Rules us.hooks vs funs name var P) (input : Bytes) :
    Crate br (worldOf br hu.ok h r input) us name ⟨vs, us.hooks, funs.map Text.Fun.name⟩ P where
  hooks := hu.hooks _ (hasUser hu.ok h) rfl
  named := {
    hooks := rfl
    hook := hu.ok.hooks
    variants := fun v hv => by
      have : (genOf br vs funs).isVariant n!"Rules" (nameOf v) = true := by
        simp only [Prog.isVariant, List.any_append, Bool.or_eq_true]
        refine .inl ?_
        simp only [rulesItems, List.any_cons, Bool.or_eq_true]
        exact .inr (.inr (.inl (by simp; exact ⟨v, hv, rfl⟩)))
      simp only [worldOf, progOf, Prog.isVariant, List.any_append, Bool.or_eq_true] at this ⊢
      exact .inr (.inr this)
    vn := fun s v hv e => by
      rw [r.low s v hv e]; rfl
    names := fun f hf => by
      obtain ⟨f, hf', rfl⟩ := List.mem_map.mp hf
      obtain ⟨h1, -, -, h4, h5, h6, h7, h8, h9, -⟩ := h.fns f hf'
      refine ⟨h1, h5, h6, h7, h9, ?_, ?_⟩
      · exact (prog_const hu.ok _).trans (if_neg (Ne.symm h8))
      · have e := hu.ok.not_unit h9
        simp only [Prog.isUnit] at h4 e
        simp only [worldOf, progOf, Prog.isUnit, List.contains_append, h4, e, Bool.false_or]
        simp [rulesItems, parserItems] }
  body s := by
    obtain ⟨f, hf, e, hb⟩ := r.fns s
    exact ⟨f, e, List.mem_map_of_mem hf, e ▸ prog_fn h hf, (h.fns f hf).2.1, hb⟩

omit [DecidableEq R] in
theorem variantOf_cases (vs : List Bytes) (f : Bytes) : (variantOf vs f ∈ vs ∧ lower (variantOf vs f) = f) ∨
    (variantOf vs f = 1 :: f ∧ ∀ v ∈ vs, lower v ≠ f) := by
  unfold variantOf
  cases h : vs.find? fun v => decide (lower v = f) with
  | some v => exact .inl ⟨List.mem_of_find?_eq_some h, by simpa using List.find?_some h⟩
  | none => exact .inr ⟨rfl, fun v hv => by simpa using List.find?_eq_none.mp h v hv⟩

omit [DecidableEq R] in
/-- The names of the variants. -/
theorem variantOf_rules {hooks : List Bytes} {items : Prog} (h : NamesOK items vs funs) (inj : ∀ r s, name r = name s → r = s)
    (fns : ∀ r, ∃ f ∈ funs, f.name = name r ∧
      Text.bodyMeaning ⟨vs, hooks, funs.map Text.Fun.name⟩ .init f.lets f.tail = some (named name (P.body r)))
    (start : name P.grammar = utf8Of "grammar") (mem : utf8Of "Grammar" ∈ vs) : Rules hooks vs funs name (fun r => variantOf vs (name r)) P where
  inj := inj
  fns := fns
  start := start
  mem := mem
  low r v hv e := by
    rcases variantOf_cases vs (name r) with ⟨h1, h2⟩ | ⟨-, h2⟩
    · exact nodup_inj h.uniq hv h1 (e.trans h2.symm)
    · exact absurd e (h2 v hv)
  plain r := by
    rcases variantOf_cases vs (name r) with ⟨h1, -⟩ | ⟨h1, -⟩
    · exact (h.plain _ h1).1
    · obtain ⟨f, hf, e, -⟩ := fns r
      rw [h1]
      intro c hc
      rcases List.mem_cons.mp hc with rfl | hc
      · decide
      · exact (h.fns f hf).1 c (e ▸ hc)
  vinj r s e := by
    rcases variantOf_cases vs (name r) with ⟨h1, h2⟩ | ⟨h1, -⟩ <;> rcases variantOf_cases vs (name s) with ⟨h3, h4⟩ | ⟨h3, -⟩
    · exact inj r s (by rw [← h2, ← h4]; exact congrArg lower e)
    · have := (h.plain _ h1).2
      rw [show variantOf vs (name r) = _ from e.trans h3] at this
      exact absurd rfl this
    · have := (h.plain _ h3).2
      rw [← show variantOf vs (name r) = variantOf vs (name s) from e, h1] at this
      exact absurd rfl this
    · exact inj r s (List.cons.inj (h1.symm.trans (Eq.trans e h3))).2

theorem computes (hu : UserSim us P) (h : NamesOK us.items vs funs) (r : Rules us.hooks vs funs name var P) : Computes (progOf us br vs funs) P (fun r => nameOf (var r)) := by
  have key : ∀ (d : Dir) (input : Bytes) (n m : Nat), Enough d n (m + 1) →
      Sim d (fun v _ x => v = encResult (fun r => nameOf (var r)) x) (runParse (progOf us br vs funs) n input) (parse P ⟨input⟩ m) := by
    intro d input n m he
    have C := world_crate (br := br) hu h r input
    have hs : utf8Of "Grammar" = var P.grammar := r.low P.grammar _ r.mem (by rw [r.start]; decide +kernel)
    have hn : nameOf (name P.grammar) = n!"grammar" := by rw [r.start]; decide +kernel
    obtain ⟨f, hf, e, -⟩ := r.fns P.grammar
    obtain ⟨-, -, -, -, -, h5, h6⟩ := C.named.names f.name (List.mem_map_of_mem hf)
    rw [e, hn] at h5 h6
    have hv : (worldOf br hu.ok h r input).vn P.grammar = n!"Grammar" := by
      show nameOf (var P.grammar) = _
      rw [← hs]; decide +kernel
    have hg := C.named.variants _ r.mem
    rw [hs, show nameOf (var P.grammar) = n!"Grammar" from hv] at hg
    have hk : (worldOf br hu.ok h r input).Q.const? n!"RULES_SIZE" = some vs.length := (prog_const hu.ok _).trans (if_pos rfl)
    exact parse_sim (W := worldOf br hu.ok h r input) (h := []) C.gen he rfl rfl hv hg hu.init (fun n h' => hu.new _ n h' (hasUser hu.ok h)) hn h5 h6 hk h.size
  refine ⟨fun input n v hp e => ?_, fun input m x e => ⟨8 * (m + 1), fun n hn => ?_⟩, fun input => ⟨?_, ?_⟩, fun input n => ?_⟩
  · have := key .sound input n n (Nat.le_succ n)
    rw [e] at this
    generalize hq : parse P ⟨input⟩ n = q at this
    cases this with
    | oofR e => cases e
    | ok k => exact ⟨n, _, hq, k⟩
  · have := key .complete input n m hn
    rw [e] at this
    generalize runParse (progOf us br vs funs) n input = q at this ⊢
    cases this with
    | oofL e => cases e
    | ok k => exact ⟨_, by rw [k]⟩
  · rintro ⟨n, e⟩
    have := key .sound input n n (Nat.le_succ n)
    rw [e] at this
    generalize hq : parse P ⟨input⟩ n = q at this
    cases this with
    | oofR e => cases e
    | panic => exact ⟨n, _, hq⟩
  · rintro ⟨m, p, e⟩
    have := key .complete input (8 * (m + 1)) m (Nat.le_refl _)
    rw [e] at this
    generalize hq : runParse (progOf us br vs funs) (8 * (m + 1)) input = q at this
    cases this with
    | oofL e => cases e
    | panic => exact ⟨_, hq⟩
  · have := key .sound input n n (Nat.le_succ n)
    generalize runParse (progOf us br vs funs) n input = q at this ⊢
    generalize parse P ⟨input⟩ n = q' at this
    cases this with
    | oofL e => exact .inl rfl
    | oofR e => cases e
    | panic => exact .inr (.inl rfl)
    | ok k => exact .inr (.inr ⟨_, _, rfl⟩)
end
end PP.Mini
