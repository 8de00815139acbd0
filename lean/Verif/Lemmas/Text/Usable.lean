import Verif.Lemmas.Text.Lines
import Verif.Lemmas.Gen.LinkExists
import Verif.Spec.Usable

/-! # Grammars and the files generated for them -/
namespace PP.Gen.Text
open PP.Run

/-! ## Names -/

theorem lower_letter {c : UInt8} (h : IsLetter c) : IsLetter (lowerByte c) := by
  have key : ∀ c : Fin 256, IsLetter (UInt8.ofNat c) → IsLetter (lowerByte (UInt8.ofNat c)) := by unfold IsLetter; decide +kernel
  have := key ⟨c.toNat, c.toNat_lt⟩
  simp only [UInt8.ofNat_toNat] at this
  exact this h
theorem upper_letter {c : UInt8} (h : IsLetter c) : IsLetter (upperByte c) := by
  have key : ∀ c : Fin 256, IsLetter (UInt8.ofNat c) → IsLetter (upperByte (UInt8.ofNat c)) := by unfold IsLetter; decide +kernel
  have := key ⟨c.toNat, c.toNat_lt⟩
  simp only [UInt8.ofNat_toNat] at this
  exact this h
theorem letter_start {c : UInt8} (h : IsLetter c) : isIdStart c = true := by
  have key : ∀ c : Fin 256, IsLetter (UInt8.ofNat c) → isIdStart (UInt8.ofNat c) = true := by unfold IsLetter; decide +kernel
  have := key ⟨c.toNat, c.toNat_lt⟩
  simp only [UInt8.ofNat_toNat] at this
  exact this h

theorem name_ident {x : Bytes} (h : IsName x) : IsIdent x := by
  cases x with
  | nil => exact h.elim
  | cons c cs =>
    refine ⟨letter_start h.1, fun d hd => ?_⟩
    rcases h.2 d hd with h1 | rfl
    · exact idStart_cont (letter_start h1)
    · decide
theorem name_lower {x : Bytes} (h : IsName x) : IsName (lower x) := by
  cases x with
  | nil => exact h.elim
  | cons c cs =>
    refine ⟨lower_letter h.1, fun d hd => ?_⟩
    obtain ⟨d', hd', rfl⟩ := List.mem_map.mp hd
    rcases h.2 d' hd' with h1 | rfl
    · exact .inl (lower_letter h1)
    · exact .inr (by decide)
theorem name_cap {x : Bytes} (h : IsName x) : IsName (cap x) := by
  cases x with
  | nil => exact h.elim
  | cons c cs => exact ⟨upper_letter h.1, h.2⟩

/-- A capitalised name that is a keyword is `Self`. -/
theorem cap_keyword {x : Bytes} (h : IsName x) (hk : lower x ∉ keywords) : cap x ∉ keywords := by
  have key : ∀ k ∈ keywords, k = utf8Of "Self" ∨ ∀ c, k.head? = some c → ¬ (65 ≤ c.toNat ∧ c.toNat ≤ 90) := by decide +kernel
  intro hc
  rcases key _ hc with e | e
  · refine hk ?_
    rw [← lower_cap, e]; decide +kernel
  · cases x with
    | nil => exact h.elim
    | cons c cs =>
      refine e _ rfl ?_
      have h1 : IsLetter c := h.1
      have key : ∀ c : Fin 256, IsLetter (UInt8.ofNat c) → 65 ≤ (upperByte (UInt8.ofNat c)).toNat ∧ (upperByte (UInt8.ofNat c)).toNat ≤ 90 := by
        unfold IsLetter; decide +kernel
      have := key ⟨c.toNat, c.toNat_lt⟩
      simp only [UInt8.ofNat_toNat] at this
      exact this h1

/-! ## Comments -/

theorem comment_lines {cs : List DComment} : ∀ {a o : Option (List Bytes)}, (∀ ls, a = some ls → ∀ l ∈ ls, (10 : UInt8) ∉ l) →
    commentsLines a cs = .ok o → ∀ ls, o = some ls → ∀ l ∈ ls, (10 : UInt8) ∉ l := by
  induction cs with
  | nil => intro a o ha h; simp only [commentsLines] at h; injection h with h; exact h ▸ ha
  | cons c cs ih =>
    intro a o ha h
    simp only [commentsLines] at h
    obtain ⟨l, h1, h2⟩ := Out.bind_eq_ok.mp h
    refine ih (fun ls hls => ?_) h2
    injection hls with hls
    subst hls
    unfold DComment.lines at h1
    split at h1
    · cases h1
    · split at h1
      · cases h1
      · injection h1 with h1
        subst h1
        intro x hx
        obtain ⟨y, hy, rfl⟩ := List.mem_map.mp hx
        have h3 := (splitLines_lines c.body).2.1 y hy
        obtain ⟨p, q, e, _⟩ := trim_trimmed y
        intro h4
        exact h3 (by rw [e]; simp [h4])

/-! ## From rules to codes -/

/-- The names an involved set holds. -/
def CtxNames (c : Ctx) : Prop := ∀ nm inv, c.lr nm = some inv → ∀ x ∈ inv, IsName x

theorem ctx_names {g : DGrammar} (hw : g.WF) : CtxNames g.ctx := by
  intro nm inv hi x hx
  by_cases hf : g.Flagged nm
  · obtain ⟨s, hs, _, hm⟩ := g.ctx_flagged hf
    rw [hs] at hi
    injection hi with hi
    subst hi
    obtain ⟨r, hr, rfl⟩ := ((hm x).mp hx).1.declared
    exact (hw r hr).1
  · rw [g.ctx_not hf] at hi; cases hi

theorem mem_sortNames {l : List Bytes} {x : Bytes} : x ∈ sortNames l ↔ x ∈ l := by
  unfold sortNames; exact List.mem_mergeSort

theorem src_ok {c : Ctx} {rs hs : List Bytes} {l : Line} (hc : CtxNames c) (hr : ∀ x ∈ rs, IsName x) (hh : ∀ x ∈ hs, IsName x)
    (h : Src c rs hs l) (hs : ∃ S S', l.step S = some S') : LineOk l := by
  obtain ⟨S, S', hs⟩ := hs
  cases l with
  | stringTerminal => cases hs
  | stringTerminalOptAscii i d =>
    simp only [Line.step] at hs
    obtain ⟨v, hv, _⟩ := Option.bind_eq_some_iff.mp hs
    exact ⟨v, hv⟩
  | terminal i d =>
    simp only [Line.step] at hs
    obtain ⟨v, hv, _⟩ := Option.bind_eq_some_iff.mp hs
    exact ⟨v, hv⟩
  | hooked i nm j => exact name_ident (hh _ h)
  | varName i v f =>
    obtain ⟨nm, h1, _, _, rfl, rfl⟩ := h
    exact ⟨name_ident (name_cap (hr _ h1)), name_ident (name_lower (hr _ h1))⟩
  | varNameLR i v f =>
    obtain ⟨nm, h1, _, _, rfl, rfl⟩ := h
    exact ⟨name_ident (name_cap (hr _ h1)), name_ident (name_lower (hr _ h1))⟩
  | involvedSet vs =>
    obtain ⟨nm, h1, inv, h2, rfl⟩ := h
    intro v hv
    obtain ⟨x, hx, rfl⟩ := List.mem_map.mp (mem_sortNames.mp hv)
    exact name_ident (name_cap (hc nm inv h2 x hx))
  | inlined i f =>
    obtain ⟨nm, h1, _, _, rfl⟩ := h
    exact name_ident (name_lower (hr _ h1))
  | matchRange => trivial
  | unary => trivial
  | binary => trivial
  | exec => trivial

/-- The rules, the codes generated for them, and the statements of the codes. -/
inductive Texts (c : Ctx) : List DRule → List RuleCode → List (List Line × Nat) → Prop where
  | nil : Texts c [] [] []
  | cons {r k ls i e rs ks bs} : CodeOk k ls i → Good c r.rhs.refs r.rhs.hooks ls → k.name = lower r.name →
      execLines .empty (ls ++ [.exec i]) = some e → r.rhs.meaning written c.refs = some e → Texts c rs ks bs →
      Texts c (r :: rs) (k :: ks) ((ls, i) :: bs)

theorem Texts.codes {c : Ctx} {rs ks bs} (h : Texts c rs ks bs) : CodesOk ks bs := by
  induction h with
  | nil => exact .nil
  | cons h _ _ _ _ _ ih => exact .cons h ih

theorem Texts.names {c : Ctx} {rs ks bs} (h : Texts c rs ks bs) : ks.map (·.name) = rs.map fun r => lower r.name := by
  induction h with
  | nil => rfl
  | cons _ _ h _ _ _ ih => simp [h, ih]

theorem texts_of {c : Ctx} (hn : c.Named) (hc : CtxNames c) {rs ks hs} (h : Codes c rs ks hs) (hw : ∀ r ∈ rs, r.WF)
    (hf : ∀ r ∈ rs, r.rhs.Faithful) : ∃ bs, Texts c rs ks bs := by
  induction h with
  | nil => exact ⟨[], .nil⟩
  | @cons r k h rs ks hs hk _ ih =>
    obtain ⟨bs, ih⟩ := ih (fun r hr => hw r (by simp [hr])) fun r hr => hf r (by simp [hr])
    obtain ⟨P, hP, hl, _⟩ := hk.lines
    have hr := hw r (by simp)
    have hr' := strip_wf hr.2.2.1
    have g1 : Good c r.rhs.refs r.rhs.hooks P.lines := by
      have := rhs_good hr' hP
      rwa [strip_refs, strip_hooks] at this
    obtain ⟨f1, ⟨e, f2⟩, _⟩ := rhs_faithful (c := c.refs) hr.2.2.1 (hf r (by simp))
    have he : execLines .empty (P.lines ++ [.exec (P.key 1)]) = some e := by
      rw [exec_comp hn hr' hP, strip_meaning, f1, f2]
    have hx : ∀ l ∈ P.lines, ∀ i, l ≠ .exec i := by
      rintro l hl i rfl
      exact g1.src _ hl
    have hnm := rhs_names hr.2.2.1
    refine ⟨(P.lines, P.key 1) :: bs, .cons ⟨hl, ?_, ?_, fun l hl => ?_, hx⟩ g1 hk.name he f2 ih⟩
    · rw [hk.name]; exact name_ident (name_lower hr.1)
    · exact fun cs hcs => comment_lines (by intro ls hls; cases hls) hk.comment cs hcs
    · exact src_ok hc hnm.1 hnm.2 (g1.src l hl) (lines_literals hx he l hl)

/-! ## The items -/

theorem hooks_items {hooks ks bs} : hooksOf (itemsOf hooks ks bs) = hooks := by
  unfold hooksOf itemsOf
  simp only [List.map_append, List.flatten_append]
  cases hooks <;> simp

def funOf (y : RuleCode × List Line × Nat) : Fun := ⟨y.1.name, y.2.1.map lineLet, clo y.2.2⟩

theorem funs_items {hooks ks bs} : funsOf (itemsOf hooks ks bs) = (ks.zip bs).map funOf := by
  unfold funsOf itemsOf
  simp only [List.filterMap_append]
  cases hooks <;> simp [funOf]

theorem counts_items {hooks ks bs} : (itemsOf hooks ks bs).count .glob = 1 ∧ (itemsOf hooks ks bs).count .refCell = 1 := by
  have : ∀ (l : List (RuleCode × List Line × Nat)) (x : Item), (∀ f, x ≠ .fn f) →
      (l.map fun y => Item.fn ⟨y.1.name, y.2.1.map lineLet, clo y.2.2⟩).count x = 0 := by
    intro l x hx
    rw [List.count_eq_zero]
    intro h
    obtain ⟨y, _, e⟩ := List.mem_map.mp h
    exact hx _ e.symm
  unfold itemsOf
  simp only [List.count_append, this _ .glob (by simp), this _ .refCell (by simp)]
  cases hooks <;> simp

theorem Texts.fns {c : Ctx} {rs ks bs} (h : Texts c rs ks bs) {hooks} :
    (funsOf (itemsOf hooks ks bs)).map Fun.name = rs.map fun r => lower r.name := by
  rw [funs_items]
  induction h with
  | nil => rfl
  | cons _ _ h _ _ _ ih => simp only [List.zip_cons_cons, List.map_cons, ih]; simp [funOf, h]

/-! ## The meaning of the files -/

/-- The function names and closures are those of the rules. -/
inductive Defs (c : Refs) : List DRule → List (Bytes × Expr Bytes) → Prop where
  | nil : Defs c [] []
  | cons {r e rs P} : r.rhs.meaning written c = some e → Defs c rs P → Defs c (r :: rs) ((lower r.name, e) :: P)

theorem Texts.defs {c : Ctx} {g : Names} (hg : g.NoCore) {rs ks bs} (h : Texts c rs ks bs)
    (hl : ∀ b ∈ bs, ∀ l ∈ b.1, LineIn g l) :
    ∃ P, ((ks.zip bs).map funOf).mapM (fun f => (bodyMeaning g .init f.lets f.tail).map fun e => (f.name, e)) = some P ∧
      Defs c.refs rs P := by
  induction h with
  | nil => exact ⟨[], rfl, .nil⟩
  | @cons r k ls i e rs ks bs h1 h2 h3 h4 h5 _ ih =>
    obtain ⟨P, ih, hd⟩ := ih fun b hb => hl b (by simp [hb])
    refine ⟨(k.name, e) :: P, ?_, h3 ▸ .cons h5 hd⟩
    have := lines_meaning hg (hl (ls, i) (by simp)) Sim.init h1.body h4
    simp [List.mapM_cons, funOf, this, ih]

/-- Every body has a meaning if the file has one. -/
theorem bodies_of {α β : Type} {f : α → Option β} : ∀ {l : List α} {P : List β}, l.mapM f = some P → ∀ x ∈ l, ∃ y, f x = some y
  | [], _, _, x, hx => by cases hx
  | a :: l, P, h, x, hx => by
    rw [List.mapM_cons] at h
    obtain ⟨y, h1, h2⟩ := Option.bind_eq_some_iff.mp h
    obtain ⟨ys, h3, _⟩ := Option.bind_eq_some_iff.mp h2
    rcases List.mem_cons.mp hx with rfl | hx
    · exact ⟨y, h1⟩
    · exact bodies_of h3 x hx

/-- The parameters are local variables. -/
def HasParams (L : Locals) : Prop := ∀ n ∈ parameters, (L.lookup n).isSome = true

theorem HasParams.init : HasParams .init := by unfold HasParams; decide +kernel
theorem lookup_cons_isSome {L : Locals} {x y : Bytes} {v : Val} (h : (L.lookup x).isSome = true) :
    (List.lookup x ((y, v) :: L)).isSome = true := by
  simp only [List.lookup]
  split
  · rfl
  · exact h
theorem let_grows {g : Names} {L L' : Locals} {s : Let} (h : s.step g L = some L') : ∃ v, L' = (s.x, v) :: L := by
  unfold Let.step at h
  split at h
  · cases h
  · split at h
    · obtain ⟨e, _, rfl⟩ := Option.map_eq_some_iff.mp h; exact ⟨_, rfl⟩
    · split at h
      · injection h with h; exact ⟨_, h.symm⟩
      · cases h
    · split at h
      · injection h with h; exact ⟨_, h.symm⟩
      · cases h
theorem HasParams.step {g : Names} {L L' : Locals} {s : Let} (hp : HasParams L) (h : s.step g L = some L') : HasParams L' := by
  obtain ⟨v, rfl⟩ := let_grows h
  exact fun n hn => lookup_cons_isSome (hp n hn)

/-- A block with a meaning: a part of it starts with the parameters in scope. -/
theorem body_part {g : Names} {tail : Bytes} {e : Expr Bytes} {b : List Let} : ∀ {a : List Let} {L : Locals}, HasParams L →
    bodyMeaning g L (a ++ b) tail = some e → ∃ L', HasParams L' ∧ bodyMeaning g L' b tail = some e
  | [], L, hp, h => ⟨L, hp, h⟩
  | s :: a, L, hp, h => by
    simp only [List.cons_append, bodyMeaning] at h
    split at h
    · cases h
    · next h1 => exact body_part (hp.step h1) h
theorem body_line {g : Names} {tail : Bytes} {e : Expr Bytes} {b : List Let} (h : bodyMeaning g .init b tail = some e) {s : Let} (hs : s ∈ b) :
    ∃ L L', HasParams L ∧ s.step g L = some L' := by
  obtain ⟨x, y, rfl⟩ := List.append_of_mem hs
  obtain ⟨L, hp, h⟩ := body_part .init h
  simp only [bodyMeaning] at h
  split at h
  · cases h
  · next h1 => exact ⟨L, _, hp, h1⟩

/-- What the names of a line that has a meaning satisfy. -/
def LineNames (g : Names) : Line → Prop
  | .hooked _ nm _ => nm ∉ parameters
  | .varName _ v f | .varNameLR _ v f => v ∈ g.variants ∧ f ∉ parameters ∧ f ∈ g.fns
  | .involvedSet vs => ∀ v ∈ vs, v ∈ g.variants
  | .inlined _ f => f ∉ parameters ∧ f ∈ g.fns
  | _ => True

theorem isFn_names {g : Names} {L : Locals} {f : Bytes} (hp : HasParams L) (h : g.isFn L f = true) : f ∉ parameters ∧ f ∈ g.fns := by
  simp only [Names.isFn, Bool.and_eq_true, Option.isNone_iff_eq_none] at h
  refine ⟨fun hm => ?_, by simpa using h.2⟩
  have := hp f hm
  rw [h.1.1] at this; cases this

theorem rule_names {g : Names} {L : Locals} {v f x : Bytes} (hp : HasParams L) (h : g.rule L (.variant v) (.var f) = some x) :
    v ∈ g.variants ∧ f ∉ parameters ∧ f ∈ g.fns := by
  simp only [Names.rule] at h
  split at h
  · next hc =>
    simp only [Bool.and_eq_true] at hc
    exact ⟨by simpa using hc.1.1, isFn_names hp hc.1.2⟩
  · cases h

theorem core_of_call {g : Names} {L : Locals} {f : Bytes} {args : List Arg} {e : Expr Bytes} (hg : g.NoCore) (hf : f.head? = some 95)
    (h : callMeaning g L f args = some e) : coreCall g L f args = some e := by
  have h3 : f ∉ g.hooks := fun hm => underscore_not_name hf (hg f (by simp [hm]))
  unfold callMeaning at h
  split at h
  · cases h
  · rw [if_neg (by simp [h3])] at h
    exact h

theorem step_names {g : Names} (hg : g.NoCore) {L L' : Locals} (hp : HasParams L) {l : Line} (h : (lineLet l).step g L = some L') :
    LineNames g l := by
  cases l with
  | hooked i nm j =>
    simp only [lineLet, Let.step, clo_not_keyword, if_false] at h
    obtain ⟨e, h, _⟩ := Option.map_eq_some_iff.mp h
    unfold callMeaning at h
    split at h
    · cases h
    · next hc =>
      intro hm
      exact hc (by simp [hp nm hm])
  | varName i v f =>
    simp only [lineLet, Let.step, clo_not_keyword, if_false] at h
    obtain ⟨e, h, _⟩ := Option.map_eq_some_iff.mp h
    have h := core_of_call hg (by decide +kernel) h
    have n1 : unaries.lookup (utf8Of "_var_name") = none := by decide +kernel
    have n2 : binaries.lookup (utf8Of "_var_name") = none := by decide +kernel
    simp only [coreCall, n1, n2] at h
    split at h
    · obtain ⟨x, h, _⟩ := Option.map_eq_some_iff.mp h
      exact rule_names hp h
    · cases h
  | varNameLR i v f =>
    simp only [lineLet, Let.step, clo_not_keyword, if_false] at h
    obtain ⟨e, h, _⟩ := Option.map_eq_some_iff.mp h
    have h := core_of_call hg (by decide +kernel) h
    have n1 : unaries.lookup (utf8Of "_var_name_indirect_left_recursion") = none := by decide +kernel
    have n2 : binaries.lookup (utf8Of "_var_name_indirect_left_recursion") = none := by decide +kernel
    simp only [coreCall, n1, n2] at h
    split at h
    · split at h
      · obtain ⟨x, h, _⟩ := Option.map_eq_some_iff.mp h
        exact rule_names hp h
      · cases h
    · cases h
  | inlined i f =>
    simp only [lineLet, Let.step, clo_not_keyword, if_false] at h
    split at h
    · next hc => exact isFn_names hp hc.1
    · cases h
  | involvedSet vs =>
    have n1 : utf8Of "involved_set" ∉ keywords := by decide +kernel
    have h : (if utf8Of "involved_set" ∈ keywords then none
      else if vs.all g.variants.contains = true then some ((utf8Of "involved_set", Val.set (vs.map lower)) :: L) else none) = some L' := h
    rw [if_neg n1] at h
    split at h
    · next hc =>
      rw [List.all_eq_true] at hc
      intro v hv
      simpa using hc v hv
    · cases h
  | stringTerminal => trivial
  | stringTerminalOptAscii => trivial
  | terminal => trivial
  | matchRange => trivial
  | unary => trivial
  | binary => trivial
  | exec => trivial

/-- A call of the function `involved_set` after the variable of that name has been set has no meaning. -/
theorem set_hides {g : Names} (hg : g.NoCore) {L : Locals} {vs : List Bytes} {i : Nat} {v : Bytes} {b : List Let} {tail : Bytes} :
    bodyMeaning g L (lineLet (.involvedSet vs) :: lineLet (.varNameLR i v (utf8Of "involved_set")) :: b) tail = none := by
  simp only [bodyMeaning]
  split
  · rfl
  · next L1 h1 =>
    split
    · rfl
    · next L2 h2 =>
      exfalso
      obtain ⟨w, rfl⟩ := let_grows h1
      simp only [lineLet, Let.step, clo_not_keyword, if_false] at h2
      obtain ⟨e, h, _⟩ := Option.map_eq_some_iff.mp h2
      have h := core_of_call hg (by decide +kernel) h
      have n1 : unaries.lookup (utf8Of "_var_name_indirect_left_recursion") = none := by decide +kernel
      have n2 : binaries.lookup (utf8Of "_var_name_indirect_left_recursion") = none := by decide +kernel
      simp only [coreCall, n1, n2] at h
      split at h
      · split at h
        · obtain ⟨x, h, _⟩ := Option.map_eq_some_iff.mp h
          simp only [Names.rule] at h
          split at h
          · next hc =>
            simp only [Bool.and_eq_true, Names.isFn] at hc
            have := hc.1.2.1.1
            simp [List.lookup] at this
          · cases h
        · cases h
      · cases h

end PP.Gen.Text
