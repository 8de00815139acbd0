import Verif.Lemmas.Gen.LinkExists
import Verif.Props.GenFiles

/-! # From the grammar file to the running parser: C27, C54

`Links c body name` says that the rules with bodies `body` are the functions of the generated code `c` (by function name). -/
namespace PP.Gen

section
variable {g : DGrammar} {ord : HashOrd} {n₀ : Nat} {c : GeneratedCode} {R : Type} [DecidableEq R] {body : R → Expr R}
  {name : R → Bytes} {W : Bytes → Expr Bytes}

/-! ## C54 -/

/-- C54: for a grammar in which every name referred to is declared, no two names differ only in case, and all leaves are
translated faithfully, the generated functions can be linked: they are pairwise distinct and call only each other. -/
theorem C54_generated_code_links (hw : g.WF) (hsm : g.text.length < 82000000) (h : generateParser ord n₀ g.text = .ok (.code c))
    (hf : ∀ r ∈ g, r.rhs.Faithful) (hcl : g.Closed) : ∃ body : g.Fn → Expr g.Fn, Links c body Subtype.val :=
  links_exist hw hsm h hf hcl

/-- C54: if the grammar has no hooked calls and the generator sees no left recursion, the parser made of the generated code
returns (from a fresh context, any rule, any start position, on sources for which the 2^32 node keys suffice) exactly what
PEG semantics gives for the grammar as written. -/
theorem C54_generated_parser_computes_peg (hw : g.WF) (hsm : g.text.length < 82000000) (h : generateParser ord n₀ g.text = .ok (.code c))
    (hf : ∀ r ∈ g, r.rhs.Faithful) (hs : g.Simple) (hl : Links c body name) (hW : g.Means W) (start : R) (rules : List R)
    (hrules : ∀ r, r ∈ rules) (src : Source) (hsmall : rules.length * (src.len + 1) < 2 ^ 32) (r : R) {p : Nat} (hp : p ≤ src.len)
    (b : Bool) (q : Nat) :
    (∃ n st', eval (.plain body start) src n (.varName r) 0 p (St.new start ()) = .ok (b, q, st')) ↔
      Peg W src (.varName (name r)) p b q := by
  have hb := links_bodies hw hsm h hf hl hW
  have hpl := links_plain hw hsm h hf hl hs
  rw [C05_returns_iff_peg_defined body start src hpl rules hrules hsmall (e := .varName r) trivial hp b q]
  exact ⟨fun h => Agrees.peg hb h (e := .varName (name r)) rfl,
    fun h => Agrees.unpeg hb hpl h (a := .varName r) (e := .varName (name r)) trivial rfl rfl⟩

/-- C54: whatever a parser made of generated code accepts, left recursive or not, is derivable from the grammar as written. -/
theorem C54_accepted_text_is_derivable {U : Type} (hw : g.WF) (hsm : g.text.length < 82000000)
    (h : generateParser ord n₀ g.text = .ok (.code c)) (hf : ∀ r ∈ g, r.rhs.Faithful) (P : Parser R U) (hl : Links c P.body name)
    (hW : g.Means W) (src : Source) (hh : P.HooksOK src) {k : Nat} {st : St R U} (hr : Reached P src Expr.Any k st) {n : Nat} {r : R}
    {p q : Nat} {st' : St R U} (hc : eval P src n (.varName r) k p st = .ok (true, q, st')) :
    Derives W (.varName (name r)) (src.slice p q) :=
  Agrees.derives (links_bodies hw hsm h hf hl hW) (C24_accepted_text_is_derivable P src hh hr hc) (e := .varName (name r)) rfl

/-! ## C27 -/

/-- C27: if every cycle of references that may be evaluated before anything is consumed contains a reference the generator
recognises as left recursive, and no repeated expression may match the empty string, then the parser made of the generated
code terminates on every source. -/
theorem C27_detected_recursion_terminates {U : Type} (hw : g.WF) (hsm : g.text.length < 82000000)
    (h : generateParser ord n₀ g.text = .ok (.code c)) (hf : ∀ r ∈ g, r.rhs.Faithful) (P : Parser R U) (hl : Links c P.body name)
    (rules : List R) (hrules : ∀ r, r ∈ rules) (hW : g.Means W) (hcyc : ∀ x, ¬ Relation.TransGen (g.Hidden W) x x)
    (hloop : ∀ r ∈ g, NoEmptyLoop W (W (lower r.name))) (src : Source) (hh : P.HooksOK src) :
    ∃ N, ∀ n, N ≤ n → (∃ b q t, parse P src n = .ok (b, q, t)) ∨ parse P src n = .panic .keyOverflow ∨
      parse P src n = .panic .user :=
  C07_parse_terminates P src hh rules hrules (links_wellFormed hw hsm h hf hl rules hrules hW hcyc hloop)

/-- C27: but where the generator sees no left recursion and evaluating the written rule at a position needs evaluating the
same rule at the same position, the generated parser never returns. -/
theorem C27_hidden_recursion_never_returns (hw : g.WF) (hsm : g.text.length < 82000000)
    (h : generateParser ord n₀ g.text = .ok (.code c)) (hf : ∀ r ∈ g, r.rhs.Faithful) (hs : g.Simple) (hl : Links c body name)
    (hW : g.Means W) (start r : R) (src : Source) {p : Nat} {x : Bytes} {p' : Nat}
    (hreach : (name r, p) = (x, p') ∨ NeedsPlus W src (.varName (name r), p) (.varName x, p'))
    (hself : NeedsPlus W src (.varName x, p') (.varName x, p')) {k : Nat} {st : St R Unit}
    (hst : Reached (.plain body start) src Expr.Plain k st) (n : Nat) (b : Bool) (q : Nat) (st' : St R Unit) :
    eval (.plain body start) src n (.varName r) k p st ≠ .ok (b, q, st') := by
  intro he
  have h1 := C04_memoised_agrees_with_peg body start src (links_plain hw hsm h hf hl hs) hst (e := .varName r) trivial he
  have h2 : Peg W src (.varName (name r)) p b q := Agrees.peg (links_bodies hw hsm h hf hl hW) h1 (e := .varName (name r)) rfl
  rcases hreach with e | hreach
  · cases e; exact hself.no_result ⟨b, q, h2⟩
  · exact NeedsPlus.no_result' hreach hself ⟨b, q, h2⟩

end

/-! ### Two grammars with hidden left recursion -/

theorem not_leftRecursive_of {g : DGrammar} (h : ∀ r ∈ g, r.rhs.lefts = []) (x : Bytes) : ¬ g.LeftRecursive x := by
  rintro ⟨y, z, _, ⟨r, hr, hz⟩, _⟩
  unfold DGrammar.lookup at hr
  rw [h r (by simpa using List.mem_of_find?_eq_some hr)] at hz
  cases hz

theorem parse_never {R : Type} [DecidableEq R] {body : R → Expr R} {start : R} {src : Source}
    (h : ∀ n b q st', eval (.plain body start) src n (.varName start) 0 0 (St.new start ()) ≠ .ok (b, q, st')) :
    ∀ n b q t, parse (.plain body start) src n ≠ .ok (b, q, t) := by
  intro n b q t he
  unfold parse at he
  obtain ⟨⟨b', q', st'⟩, h1, _⟩ := Out.bind_eq_ok.mp he
  exact h n b' q' st' h1

/-- `<A>='y'/(<A>,'x');` : left recursion in the last alternative. -/
def lastAlt : DGrammar := oneRule (.chain .choice [] (chrA 121) (.one [] (.plain (.mk (.sub (.chain .seq [] (refA "A")
  (.one [] (chrA 120)))) [])))) []
/-- `<A>=('x'?,<A>)/'y';` : left recursion behind an element that may match nothing. -/
def behindOpt : DGrammar := oneRule (.chain .choice [] (.plain (.mk (.sub (.chain .seq [] (.post .opt (.mk (.term (.chr 120)) []) [])
  (.one [] (refA "A")))) [])) (.one [] (chrA 121))) []

example : lastAlt.text = bytesOf "<A>='y'/(<A>,'x');" ∧ behindOpt.text = bytesOf "<A>=('x'?,<A>)/'y';" := by decide +kernel

theorem isName_A : IsName (nm "A") := isName_of (c := 65) (cs := []) (by decide) (by decide)

theorem lastAlt_wf : lastAlt.WF := oneRule_wf ⟨isWs_of [] (by decide), ⟨⟨trivial, isWs_of [] (by decide)⟩, rfl⟩, isWs_of [] (by decide),
  ⟨⟨⟨isWs_of [] (by decide), ⟨⟨isName_A, isWs_of [] (by decide)⟩, rfl⟩, isWs_of [] (by decide), ⟨trivial, isWs_of [] (by decide)⟩, rfl⟩,
    isWs_of [] (by decide)⟩, rfl⟩⟩ (by simp)
theorem behindOpt_wf : behindOpt.WF := oneRule_wf ⟨isWs_of [] (by decide), ⟨⟨⟨isWs_of [] (by decide), ⟨⟨trivial, isWs_of [] (by decide)⟩, rfl,
  isWs_of [] (by decide)⟩, isWs_of [] (by decide), ⟨isName_A, isWs_of [] (by decide)⟩, rfl⟩, isWs_of [] (by decide)⟩, rfl⟩,
  isWs_of [] (by decide), ⟨trivial, isWs_of [] (by decide)⟩, rfl⟩ (by simp)

theorem lastAlt_faithful : ∀ r ∈ lastAlt, r.rhs.Faithful := by
  intro r hr
  simp only [lastAlt, oneRule, List.mem_singleton] at hr
  subst hr
  exact ⟨⟨by decide, by decide, by decide, by decide⟩, trivial, ⟨by decide, by decide, by decide, by decide⟩⟩
theorem behindOpt_faithful : ∀ r ∈ behindOpt, r.rhs.Faithful := by
  intro r hr
  simp only [behindOpt, oneRule, List.mem_singleton] at hr
  subst hr
  exact ⟨⟨⟨by decide, by decide, by decide, by decide⟩, trivial⟩, ⟨by decide, by decide, by decide, by decide⟩⟩

theorem oneRule_closed {r : DRhs} {cs} (h : ∀ z ∈ r.refs, z = nm "A") : (oneRule r cs).Closed := by
  refine ⟨fun d hd z hz => ?_, ?_⟩
  · simp only [oneRule, List.mem_singleton] at hd
    subst hd
    exact ⟨_, List.mem_singleton.mpr rfl, (h z hz).symm⟩
  · simp [oneRule]

/-- C27: from `<A>='y'/(<A>,'x');` the generator makes code that links, without noticing the left recursion; and whatever
parser is made of this code, it never returns on a source that does not start with `y`. -/
theorem C27_last_alternative_hangs (ord : HashOrd) : (∀ x, ¬ lastAlt.LeftRecursive x) ∧
    ∃ c, (∃ N, ∀ n, N ≤ n → generateParser ord n lastAlt.text = .ok (.code c)) ∧
      (∃ body : lastAlt.Fn → Expr lastAlt.Fn, Links c body Subtype.val) ∧
      ∀ (R : Type) [DecidableEq R] (body : R → Expr R) (name : R → Bytes) (start : R), Links c body name →
        ∀ src : Source, ¬ (0 < src.len ∧ src.bytes[0]? = some 121) → ∀ n b q t, parse (.plain body start) src n ≠ .ok (b, q, t) := by
  have hlr : ∀ x, ¬ lastAlt.LeftRecursive x := not_leftRecursive_of (by
    intro r hr; simp only [lastAlt, oneRule, List.mem_singleton] at hr; subst hr; rfl)
  have hsm : lastAlt.text.length < 82000000 := by decide +kernel
  obtain ⟨c, N, hN, _⟩ := round_trip lastAlt_wf hsm (not_dangling_of (by decide +kernel)) lastAlt_faithful (by
    intro r hr k hk; simp only [lastAlt, oneRule, List.mem_singleton] at hr; subst hr; cases hk) ord
  have hgen := hN N (Nat.le_refl _)
  refine ⟨hlr, c, ⟨N, hN⟩, C54_generated_code_links lastAlt_wf hsm hgen lastAlt_faithful (oneRule_closed (by decide +kernel)), ?_⟩
  intro R _ body name start hl src hsrc
  let W : Bytes → Expr Bytes := fun _ => .orderedChoice (.terminal 121) (.subexpression (.sequence (.varName (lower (nm "A"))) (.terminal 120)))
  have hW : lastAlt.Means W := by
    intro r hr
    simp only [lastAlt, oneRule, List.mem_singleton] at hr
    subst hr
    rfl
  have hself : ∀ y, NeedsPlus W src (.varName y, 0) (.varName (lower (nm "A")), 0) := fun y =>
    .step .ref (.step (.right (.terminal_fail hsrc)) (.step .sub (.one .fst)))
  have hs : lastAlt.Simple := ⟨by
    intro r hr; simp only [lastAlt, oneRule, List.mem_singleton] at hr; subst hr; rfl, hlr⟩
  exact parse_never fun n b q st' => C27_hidden_recursion_never_returns lastAlt_wf hsm hgen lastAlt_faithful hs hl hW start start src
    (Or.inr (hself _)) (hself _) .init n b q st'

/-- C27: from `<A>=('x'?,<A>)/'y';` the generator likewise makes code that links; and whatever parser is made of this code,
it never returns on any source. -/
theorem C27_recursion_behind_optional_hangs (ord : HashOrd) : (∀ x, ¬ behindOpt.LeftRecursive x) ∧
    ∃ c, (∃ N, ∀ n, N ≤ n → generateParser ord n behindOpt.text = .ok (.code c)) ∧
      (∃ body : behindOpt.Fn → Expr behindOpt.Fn, Links c body Subtype.val) ∧
      ∀ (R : Type) [DecidableEq R] (body : R → Expr R) (name : R → Bytes) (start : R), Links c body name →
        ∀ (src : Source) n b q t, parse (.plain body start) src n ≠ .ok (b, q, t) := by
  have hlr : ∀ x, ¬ behindOpt.LeftRecursive x := not_leftRecursive_of (by
    intro r hr; simp only [behindOpt, oneRule, List.mem_singleton] at hr; subst hr; rfl)
  have hsm : behindOpt.text.length < 82000000 := by decide +kernel
  obtain ⟨c, N, hN, _⟩ := round_trip behindOpt_wf hsm (not_dangling_of (by decide +kernel)) behindOpt_faithful (by
    intro r hr k hk; simp only [behindOpt, oneRule, List.mem_singleton] at hr; subst hr; cases hk) ord
  have hgen := hN N (Nat.le_refl _)
  refine ⟨hlr, c, ⟨N, hN⟩, C54_generated_code_links behindOpt_wf hsm hgen behindOpt_faithful (oneRule_closed (by decide +kernel)), ?_⟩
  intro R _ body name start hl src
  let W : Bytes → Expr Bytes := fun _ => .orderedChoice (.subexpression (.sequence (.optional (.terminal 120)) (.varName (lower (nm "A"))))) (.terminal 121)
  have hW : behindOpt.Means W := by
    intro r hr
    simp only [behindOpt, oneRule, List.mem_singleton] at hr
    subst hr
    rfl
  have hs : behindOpt.Simple := ⟨by
    intro r hr; simp only [behindOpt, oneRule, List.mem_singleton] at hr; subst hr; rfl, hlr⟩
  -- from every position the rule is needed again, one byte later after an `x`, else at the same position
  have step : ∀ y p, (∃ q, q = p + 1 ∧ p < src.len ∧ NeedsPlus W src (.varName y, p) (.varName (lower (nm "A")), q)) ∨
      NeedsPlus W src (.varName y, p) (.varName (lower (nm "A")), p) := by
    intro y p
    by_cases hx : p < src.len ∧ src.bytes[p]? = some 120
    · exact Or.inl ⟨_, rfl, hx.1, .step .ref (.step .left (.step .sub (.one (.snd (.opt_some (.terminal_ok hx.1 hx.2))))))⟩
    · exact Or.inr (.step .ref (.step .left (.step .sub (.one (.snd (.opt_none (.terminal_fail hx)))))))
  have trans : ∀ {a b d}, NeedsPlus W src a b → NeedsPlus W src b d → NeedsPlus W src a d := by
    intro a b d h h'
    induction h with
    | one h => exact .step h h'
    | step h _ ih => exact .step h (ih h')
  have loop : ∀ m p y, src.len - p ≤ m → ∃ p', NeedsPlus W src (.varName y, p) (.varName (lower (nm "A")), p') ∧
      NeedsPlus W src (.varName (lower (nm "A")), p') (.varName (lower (nm "A")), p') := by
    intro m
    induction m with
    | zero =>
      intro p y hm
      rcases step y p with ⟨q, _, hlt, _⟩ | h
      · omega
      · rcases step (lower (nm "A")) p with ⟨q, _, hlt, _⟩ | h'
        · omega
        · exact ⟨p, h, h'⟩
    | succ m ih =>
      intro p y hm
      rcases step y p with ⟨q, rfl, hlt, h⟩ | h
      · obtain ⟨p', h1, h2⟩ := ih (p + 1) (lower (nm "A")) (by omega)
        exact ⟨p', trans h h1, h2⟩
      · rcases step (lower (nm "A")) p with ⟨q, rfl, hlt, h'⟩ | h'
        · obtain ⟨p', h1, h2⟩ := ih (p + 1) (lower (nm "A")) (by omega)
          exact ⟨p', trans h (trans h' h1), h2⟩
        · exact ⟨p, h, h'⟩
  obtain ⟨p', h1, h2⟩ := loop _ 0 (name start) (Nat.le_refl _)
  exact parse_never fun n b q st' => C27_hidden_recursion_never_returns behindOpt_wf hsm hgen behindOpt_faithful hs hl hW start start src
    (Or.inr h1) h2 .init n b q st'

/-! ### The hypotheses are met -/

/-- `<A>=('x',<A>)/'y';` -/
def rightRec : DGrammar := oneRule (.chain .choice [] (.plain (.mk (.sub (.chain .seq [] (chrA 120) (.one [] (refA "A")))) []))
  (.one [] (chrA 121))) []

/-- The right-recursive grammar `<A>=('x',<A>)/'y';` meets the hypotheses of `C54_generated_parser_computes_peg`; so its
generated parser, on `xy`, returns `(true, 2)`. -/
example : ∃ c, (∃ N, generateParser .id N rightRec.text = .ok (.code c)) ∧ ∃ body : rightRec.Fn → Expr rightRec.Fn,
    Links c body Subtype.val ∧ ∃ r n st', eval (.plain body r) ⟨[120, 121]⟩ n (.varName r) 0 0 (St.new r ()) = .ok (true, 2, st') := by
  have hwf : rightRec.WF := oneRule_wf ⟨isWs_of [] (by decide), ⟨⟨⟨isWs_of [] (by decide), ⟨⟨trivial, isWs_of [] (by decide)⟩, rfl⟩,
    isWs_of [] (by decide), ⟨isName_A, isWs_of [] (by decide)⟩, rfl⟩, isWs_of [] (by decide)⟩, rfl⟩,
    isWs_of [] (by decide), ⟨trivial, isWs_of [] (by decide)⟩, rfl⟩ (by simp)
  have hlr : ∀ x, ¬ rightRec.LeftRecursive x := not_leftRecursive_of (by
    intro r hr; simp only [rightRec, oneRule, List.mem_singleton] at hr; subst hr; rfl)
  have hsm : rightRec.text.length < 82000000 := by decide +kernel
  have hf : ∀ r ∈ rightRec, r.rhs.Faithful := by
    intro r hr
    simp only [rightRec, oneRule, List.mem_singleton] at hr
    subst hr
    exact ⟨⟨⟨by decide, by decide, by decide, by decide⟩, trivial⟩, ⟨by decide, by decide, by decide, by decide⟩⟩
  obtain ⟨c, N, hN, _⟩ := round_trip hwf hsm (not_dangling_of (by decide +kernel)) hf (by
    intro r hr k hk; simp only [rightRec, oneRule, List.mem_singleton] at hr; subst hr; cases hk) .id
  have hgen := hN N (Nat.le_refl _)
  obtain ⟨body, hl⟩ := C54_generated_code_links hwf hsm hgen hf (oneRule_closed (by decide +kernel))
  let W : Bytes → Expr Bytes := fun _ => .orderedChoice (.subexpression (.sequence (.terminal 120) (.varName (lower (nm "A"))))) (.terminal 121)
  have hW : rightRec.Means W := by
    intro r hr
    simp only [rightRec, oneRule, List.mem_singleton] at hr
    subst hr
    rfl
  have hs : rightRec.Simple := ⟨by
    intro r hr; simp only [rightRec, oneRule, List.mem_singleton] at hr; subst hr; rfl, hlr⟩
  let r : rightRec.Fn := ⟨lower (nm "A"), by decide⟩
  refine ⟨c, ⟨N, hgen⟩, body, hl, r, ?_⟩
  refine (C54_generated_parser_computes_peg hwf hsm hgen hf hs hl hW r _ (fn_finite rightRec) ⟨[120, 121]⟩ (by decide) r (Nat.zero_le _) true 2).mpr ?_
  exact .ref (.choice_left (.sub_ok (.seq_ok (.terminal_ok (by decide) rfl) (.ref (.choice_right (.sub_fail (.seq_fail1 (.terminal_fail (by decide))))
    (.terminal_ok (by decide) rfl))))))

/-- The left-recursive sample grammar meets the hypotheses of `C27_detected_recursion_terminates`. -/
theorem sample_meets : ∃ W, sample.Means W ∧ (∀ x, ¬ Relation.TransGen (sample.Hidden W) x x) ∧ (∀ r ∈ sample, NoEmptyLoop W (W (lower r.name))) ∧
    sample.LeftRecursive (nm "Expr") := by
  let W : Bytes → Expr Bytes := fun x => if x = lower (nm "Grammar") then .varName (lower (nm "Expr")) else if x = lower (nm "Expr") then
    .orderedChoice (.subexpression (.sequence (.sequence (.varName (lower (nm "Expr"))) (.terminal 45)) (.varName (lower (nm "Num")))))
      (.varName (lower (nm "Num"))) else .matchRange 48 57
  have w1 : W (lower (nm "Grammar")) = .varName (lower (nm "Expr")) := by decide +kernel
  have w2 : W (lower (nm "Expr")) = .orderedChoice (.subexpression (.sequence (.sequence (.varName (lower (nm "Expr"))) (.terminal 45))
    (.varName (lower (nm "Num"))))) (.varName (lower (nm "Num"))) := by decide +kernel
  have w3 : W (lower (nm "Num")) = .matchRange 48 57 := by decide +kernel
  have hlr : sample.LeftRecursive (nm "Expr") := ⟨_, _, .refl _, ⟨sample[1], rfl, by decide +kernel⟩, .refl _⟩
  have hmem : ∀ r ∈ sample, (r.name = nm "Grammar" ∧ r.rhs.refs = [nm "Expr"]) ∨ (r.name = nm "Expr" ∧ r.rhs.refs = [nm "Expr", nm "Num", nm "Num"]) ∨
      (r.name = nm "Num" ∧ r.rhs.refs = []) := by
    intro r hr
    simp only [sample, List.mem_cons, List.not_mem_nil, or_false] at hr
    rcases hr with rfl | rfl | rfl
    · exact Or.inl ⟨rfl, rfl⟩
    · exact Or.inr (Or.inl ⟨rfl, rfl⟩)
    · exact Or.inr (Or.inr ⟨rfl, rfl⟩)
  have hid : ∀ x y, sample.Hidden W x y → x = lower (nm "Expr") ∧ y = lower (nm "Num") := by
    rintro x y ⟨_, r, hr, rfl, z, hz, rfl, hnl⟩
    rcases hmem r hr with ⟨h1, h2⟩ | ⟨h1, h2⟩ | ⟨h1, h2⟩ <;> rw [h2] at hz
    · simp at hz; subst hz; exact absurd hlr hnl
    · simp at hz
      rcases hz with rfl | rfl
      · exact absurd hlr hnl
      · exact ⟨by rw [h1], rfl⟩
    · cases hz
  refine ⟨W, ?_, fun x hx => ?_, ?_, hlr⟩
  · intro r hr
    simp only [sample, List.mem_cons, List.not_mem_nil, or_false] at hr
    rcases hr with rfl | rfl | rfl
    · rw [w1]; rfl
    · rw [w2]; rfl
    · rw [w3]; rfl
  · have h1 : x = lower (nm "Expr") := by
      obtain ⟨b, h, _⟩ := Relation.TransGen.head'_iff.mp hx
      exact (hid _ _ h).1
    have h2 : x = lower (nm "Num") := by
      obtain ⟨b, _, h⟩ := Relation.TransGen.tail'_iff.mp hx
      exact (hid _ _ h).2
    rw [h1] at h2; exact absurd h2 (by decide)
  · intro r hr
    rcases hmem r hr with ⟨h1, _⟩ | ⟨h1, _⟩ | ⟨h1, _⟩ <;> rw [h1]
    · rw [w1]; trivial
    · rw [w2]; exact ⟨⟨⟨trivial, trivial⟩, trivial⟩, trivial⟩
    · rw [w3]; trivial

end PP.Gen
