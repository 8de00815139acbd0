import Verif.Lemmas.Gen.Exec
import Verif.Lemmas.Gen.ReadGrammar

/-! # Rules and whole grammars -/
namespace PP.Gen

/-- What the generator makes of a comment. -/
def DComment.lines (c : DComment) : Out (List Bytes) :=
  match c.body with
  | [] => .panic .expectFailed
  | b :: _ => if b.toNat / 64 = 2 then .panic .slice else .ok ((splitLines c.body).map trim)

/-- The last of the comments (all are read). -/
def commentsLines (init : Option (List Bytes)) : List DComment → Out (Option (List Bytes))
  | [] => .ok init
  | c :: cs => do
    let l ← c.lines
    commentsLines (some l) cs

def DRule.code (c : Ctx) (hooks : List Bytes) (r : DRule) : Out (RuleCode × List Bytes) := do
  let P ← r.rhs.strip.comp c 1
  let cm ← commentsLines none r.comments
  .ok (⟨lower r.name, cm, P.lines ++ [.exec (P.key 1)]⟩, hooks ++ P.hooks)

def gramCode (c : Ctx) (acc : List RuleCode × List Bytes) : DGrammar → Out (List RuleCode × List Bytes)
  | [] => .ok acc
  | r :: g => do
    let (code, hooks) ← r.code c acc.2
    gramCode c (acc.1 ++ [code], hooks) g

section
variable {e : Env}

theorem DSep.head_ok {s : DSep} (h : s.WF) (t : Bytes) : Hd (s.text ++ 61 :: t) fun c => c.toNat / 64 ≠ 2 := by
  cases s with
  | plain w => exact IsWs.hd h (by decide)
  | inline w w' =>
    simp only [DSep.text, List.append_assoc, inlineText, List.cons_append]
    exact IsWs.hd h.1 (by decide)

theorem head_boundary {p q : Nat} {s : Bytes} (hs : s ≠ []) (hc : Cut ⟨e.src⟩ p q s) (hd : Hd s fun c => c.toNat / 64 ≠ 2) :
    Source.isCharBoundary e.src p = true := by
  cases s with
  | nil => exact absurd rfl hs
  | cons c s => exact boundary_of hc.get (hd c rfl)

theorem lhs_spec {r : DRule} (hr : r.WF) {i p : Nat} (h : At e.tree i (r.lhsTree p)) (hc : Cut ⟨e.src⟩ p (p + r.text.length) r.text) :
    lhs e i = .ok r.name := by
  obtain ⟨k, ks, h1, h2⟩ : ∃ k ks, (∃ nd, e.tree.getNode i = .ok nd ∧ nd.children = k :: ks) ∧
      At e.tree k (.node .r_var_name_decl (some (p, p + (r.name.length + 2))) []) := by
    unfold DRule.lhsTree at h
    split at h
    · obtain ⟨nd, h1, _, _, _, _, h6⟩ := At.inv h
      obtain ⟨k, ks, hk, a, _⟩ := UnfL.inv_cons h6
      exact ⟨k, ks, ⟨nd, h1, hk⟩, a⟩
    · obtain ⟨nd, h1, _, _, _, _, h6⟩ := At.inv h
      obtain ⟨k, ks, hk, a, _⟩ := UnfL.inv_cons h6
      exact ⟨k, ks, ⟨nd, h1, hk⟩, a⟩
  obtain ⟨nd, h1, hk⟩ := h1
  obtain ⟨ndk, g1, g2, g3, g4, g5, _⟩ := At.inv h2
  have hc' : Cut ⟨e.src⟩ p (p + r.text.length) ((60 :: (r.name ++ [62])) ++ (r.sep.text ++ 61 :: (r.rhs.text ++ 59 :: (r.w ++ commentsText r.comments)))) := by
    have := hc
    rw [show r.text = (60 :: (r.name ++ [62])) ++ (r.sep.text ++ 61 :: (r.rhs.text ++ 59 :: (r.w ++ commentsText r.comments))) by
      simp [DRule.text]] at this
    simpa [DRule.text] using this
  obtain ⟨c1, c2⟩ := hc'.split
  have b1 : Source.isCharBoundary e.src p = true := boundary_of c1.get (by decide)
  have b2 := head_boundary (by simp) c2 (DSep.head_ok hr.2.1 _)
  have := c1.strSlice b1 b2
  simp only [List.length_cons, List.length_append, List.length_nil] at this
  simp only [lhs, h1, Out.bind_ok, hk, List.getElem?_cons_zero, Out.ofOption_some, g1, g4, g5]
  rw [show p + (r.name.length + 2) = p + (r.name.length + (0 + 1) + 1) by omega, this]
  simp only [Out.bind_ok]
  rw [← List.cons_append, List.dropLast_concat]
  rfl

theorem comment_fold {n : Nat} : ∀ {ks : List Nat} {p s : Nat}, UnfL e.tree.nodes ks (leaves .r_ascii p n) →
    ks.foldlM (fun (acc : Option Nat × Option Nat) key => do
      let nd ← e.tree.getNode key
      if nd.rule = .r_ascii then .ok (acc.1.or (some nd.start), some nd.stop) else .ok acc) (some s, some p) =
    (.ok (some s, some (p + n)) : Out (Option Nat × Option Nat)) := by
  induction n with
  | zero => intro ks p s h; have := UnfL.inv_nil h; subst this; rfl
  | succ n ih =>
    intro ks p s h
    obtain ⟨k, ks, rfl, a, h⟩ := UnfL.inv_cons h
    obtain ⟨nd, g1, g2, g3, g4, g5, _⟩ := At.inv a
    simp only [List.foldlM_cons, g1, Out.bind_ok, g2, if_true, g5]
    rw [show (some s).or (some nd.start) = some s from rfl, ih h, Nat.add_assoc, Nat.add_comm 1 n]

theorem comment_spec {c : DComment} (hcw : c.WF) {i p : Nat} (h : At e.tree i (c.tree p)) (hc : Cut ⟨e.src⟩ p (p + c.text.length) c.text) :
    comment e i = c.lines := by
  unfold DComment.tree at h
  obtain ⟨nd, h1, h2, h3, h4, h5, h6⟩ := At.inv h
  obtain ⟨body, w⟩ := c
  unfold DComment.text at hc
  have c1 := hc.uncons.2.split.1
  have c2 := hc.uncons.2.split.2
  simp only [comment, h1, Out.bind_ok]
  cases body with
  | nil =>
    have := UnfL.inv_nil h6
    rw [this]
    simp [DComment.lines]
  | cons b body =>
    simp only [leaves, List.length_cons] at h6
    obtain ⟨k, ks, hk, a, h7⟩ := UnfL.inv_cons h6
    obtain ⟨ndk, g1, g2, g3, g4, g5, _⟩ := At.inv a
    rw [hk]
    simp only [List.foldlM_cons, g1, Out.bind_ok, g2, if_true, g4, g5]
    rw [show (none : Option Nat).or (some (p + 1)) = some (p + 1) from rfl, comment_fold h7]
    simp only [Out.bind_ok, Out.ofOption_some, DComment.lines]
    have hb : Source.isCharBoundary e.src (p + 1 + (b :: body).length) = true := boundary_of c2.get (by decide)
    rw [show p + 1 + 1 + body.length = p + 1 + (b :: body).length by simp; omega]
    by_cases hcb : b.toNat / 64 = 2
    · rw [if_pos hcb]
      unfold Source.strSlice
      rw [if_neg]
      · rfl
      · rintro ⟨_, _, h3, _⟩
        rw [not_boundary_of (by omega) c1.get hcb] at h3
        cases h3
    · rw [if_neg hcb, c1.strSlice (boundary_of c1.get hcb) hb]
      rfl

/-- The child loop of `rule`. -/
def ruleStep (e : Env) (fuel : Nat) (r : RuleAcc) (i : Nat) : Out RuleAcc := do
  let nd ← e.tree.getNode i
  if nd.rule = .r_lhs then do
    let name ← lhs e i
    .ok { r with name := some (lower name) }
  else if nd.rule = .r_rhs then do
    let (k, t, hooks) ← expr e fuel .rhs (BTree.new, r.hooks) i
    let (last, t) := t.push .exec (some k) none
    let ls ← t.toLines fuel last
    .ok { r with lines := ls, hooks := hooks }
  else if nd.rule = .r_comment then do
    let c ← comment e i
    .ok { r with comment := some c }
  else .ok r

theorem rule_unfold (fuel : Nat) (hooks : List Bytes) (i : Nat) : rule e fuel hooks i = (do
    let node ← e.tree.getNode i
    let r ← node.children.foldlM (ruleStep e fuel) ⟨none, [], none, hooks⟩
    let name ← Out.ofOption .expectFailed r.name
    .ok (⟨name, r.comment, r.lines⟩, r.hooks)) := rfl

theorem comments_spec {cs : List DComment} : ∀ {ks : List Nat} {p : Nat} {fuel : Nat} {r : RuleAcc}, (∀ c ∈ cs, c.WF) →
    UnfL e.tree.nodes ks (commentsTree p cs) → Cut ⟨e.src⟩ p (p + (commentsText cs).length) (commentsText cs) →
    ks.foldlM (ruleStep e fuel) r = (commentsLines r.comment cs >>= fun cm => Out.ok { r with comment := cm }) := by
  induction cs with
  | nil => intro ks p fuel r _ h _; have := UnfL.inv_nil h; subst this; rfl
  | cons c cs ih =>
    intro ks p fuel r hw h hc
    obtain ⟨k, ks, rfl, a, h7⟩ := UnfL.inv_cons h
    have hc : Cut ⟨e.src⟩ p (p + (commentsText (c :: cs)).length) (c.text ++ commentsText cs) := hc
    have hl : p + (commentsText (c :: cs)).length = p + c.text.length + (commentsText cs).length := by
      simp [commentsText]; omega
    rw [hl] at hc
    have hs := comment_spec (hw c (by simp)) a hc.split.1
    have a' := a
    unfold DComment.tree at a'
    obtain ⟨nd, g1, g2, _⟩ := At.rule a'
    have ih := fun l => ih (r := { r with comment := some l }) (fuel := fuel) (fun c hc => hw c (by simp [hc])) h7 hc.split.2
    have st : ruleStep e fuel r k = (c.lines >>= fun l => Out.ok { r with comment := some l }) := by
      simp only [ruleStep, g1, Out.bind_ok, g2, hs]
      rw [if_neg (by decide), if_neg (by decide), if_pos trivial]
    simp only [List.foldlM_cons, st, commentsLines]
    cases c.lines with
    | oof => rfl
    | panic x => rfl
    | ok l => simp only [Out.bind_ok, ih]

theorem rhs_lines {P : Piece} (h : Good 1 P) :
    Conv (fun n => BTree.toLines (BTree.new ++ P.nodes ++ [⟨.exec, some (P.key 1), none⟩]) n (1 + P.nodes.length))
      (.ok (P.lines ++ [.exec (P.key 1)])) := by
  have hg : (BTree.new ++ P.nodes ++ [(⟨.exec, some (P.key 1), none⟩ : BinaryNode)])[1 + P.nodes.length]? =
      some ⟨.exec, some (P.key 1), none⟩ := by
    rw [List.getElem?_append_right (by simp [BTree.new]; omega)]
    simp [BTree.new]
    rw [show 1 + P.nodes.length - (P.nodes.length + 1) = 0 by omega]; rfl
  have := h.emit BTree.new [⟨.exec, some (P.key 1), none⟩] rfl
  have : Conv (fun n => matchRef (BTree.new ++ P.nodes ++ [⟨.exec, some (P.key 1), none⟩]) n (P.key 1) >>= fun ls => Out.ok (ls ++ [Line.exec (P.key 1)]))
      (.ok (P.lines ++ [.exec (P.key 1)])) := Conv.bind_ok (by simpa using this) (Conv.ok _)
  refine this.congr fun n => ?_
  unfold BTree.toLines
  rw [hg]
  rfl

theorem DRule.rhsStart_cut {src : Source} {r : DRule} {p : Nat} (hc : Cut src p (p + r.text.length) r.text) :
    Cut src (r.rhsStart p) (p + r.text.length) (r.rhs.strip.text ++ 59 :: (r.w ++ commentsText r.comments)) := by
  have hl : p + r.text.length = p + r.text.length := rfl
  generalize p + r.text.length = q at hc
  rw [DRule.text_eq] at hc
  have := hc.uncons.2.split.2.uncons.2.split.2.uncons.2.split.2
  unfold DRule.rhsStart
  rwa [show p + (r.name.length + 2) + r.sep.text.length + 1 + r.rhs.lead.length =
    p + 1 + r.name.length + 1 + r.sep.text.length + 1 + r.rhs.lead.length by omega]

theorem rule_conv (he : e.Named) {r : DRule} (hr : r.WF) {i p : Nat} {hooks : List Bytes} (h : At e.tree i (r.tree p))
    (hc : Cut ⟨e.src⟩ p (p + r.text.length) r.text) : Conv (fun n => rule e n hooks i) (r.code e.ctx hooks) := by
  unfold DRule.tree at h
  obtain ⟨nd, h1, h2, h3, h4, h5, h6⟩ := At.inv h
  obtain ⟨k1, ks, hk, a1, h6⟩ := UnfL.inv_cons h6
  obtain ⟨k2, ks', rfl, a2, h6⟩ := UnfL.inv_cons h6
  have hn := lhs_spec hr a1 hc
  have hwf := hr.2.2.1.strip.2
  have c0 := DRule.rhsStart_cut hc
  have c1 := c0.split
  have c2 := c1.2.uncons.2.split.2
  have hq : p + r.text.length = r.rhsStart p + r.rhs.strip.text.length + 1 + r.w.length + (commentsText r.comments).length := by
    have := c2.end; omega
  rw [hq] at c2
  have hcs := fun fuel a => comments_spec (fuel := fuel) (r := a) hr.2.2.2.2 h6 c2
  have g1 : ∃ ndk, e.tree.getNode k1 = .ok ndk ∧ ndk.rule = .r_lhs := by
    unfold DRule.lhsTree at a1
    split at a1 <;> (obtain ⟨ndk, x, y, _⟩ := At.rule a1; exact ⟨ndk, x, y⟩)
  obtain ⟨nd1, g1, g2⟩ := g1
  obtain ⟨q2, kk, ht⟩ := r.rhs.strip.tree_rule (r.rhsStart p)
  obtain ⟨nd2, g3, g4, _⟩ := At.rule (ht ▸ a2)
  have ih := rhs_conv he (a := (BTree.new, hooks)) hwf ⟨a2, c1.1, boundary_of c1.2.get (by decide)⟩
  have hstep : ∀ n, rule e n hooks i = (expr e n .rhs (BTree.new, hooks) k2 >>= fun y =>
      BTree.toLines (y.2.1 ++ [⟨.exec, some y.1, none⟩]) n y.2.1.length >>= fun ls =>
      commentsLines none r.comments >>= fun cm => Out.ok (⟨lower r.name, cm, ls⟩, y.2.2)) := by
    intro n
    rw [rule_unfold, h1, Out.bind_ok, hk]
    have s1 : ruleStep e n ⟨none, [], none, hooks⟩ k1 = .ok ⟨some (lower r.name), [], none, hooks⟩ := by
      simp only [ruleStep, g1, Out.bind_ok, g2, hn, if_true]
    have s2 : ruleStep e n ⟨some (lower r.name), [], none, hooks⟩ k2 = (expr e n .rhs (BTree.new, hooks) k2 >>= fun y =>
      BTree.toLines (y.2.1 ++ [⟨.exec, some y.1, none⟩]) n y.2.1.length >>= fun ls => Out.ok ⟨some (lower r.name), ls, none, y.2.2⟩) := by
      simp only [ruleStep, g3, Out.bind_ok, g4]
      rw [if_neg (by decide), if_pos trivial]
      rfl
    simp only [List.foldlM_cons, s1, Out.bind_ok, s2]
    cases expr e n .rhs (BTree.new, hooks) k2 with
    | oof => rfl
    | panic x => rfl
    | ok y =>
      simp only [Out.bind_ok]
      cases BTree.toLines (y.2.1 ++ [⟨.exec, some y.1, none⟩]) n y.2.1.length with
      | oof => rfl
      | panic x => rfl
      | ok ls =>
        simp only [Out.bind_ok, hcs]
        cases commentsLines none r.comments with
        | oof => rfl
        | panic x => rfl
        | ok cm => rfl
  refine Conv.congr ?_ hstep
  have hcl : commentsLines none r.comments ≠ .oof := by
    have : ∀ cs a, commentsLines a cs ≠ .oof := by
      intro cs
      induction cs with
      | nil => simp [commentsLines]
      | cons c cs ih =>
        intro a
        simp only [commentsLines]
        unfold DComment.lines
        split
        · simp
        · split
          · simp
          · simpa using ih _
    exact this _ _
  unfold DRule.code
  cases hP : r.rhs.strip.comp e.ctx 1 with
  | oof => have := ih.1; simp [BTree.new, hP] at this
  | panic x =>
    simp only [BTree.new, List.length_cons, List.length_nil, Nat.zero_add, hP] at ih
    exact Conv.bind_panic ih
  | ok P =>
    simp only [BTree.new, List.length_cons, List.length_nil, Nat.zero_add, hP, Out.bind_ok, fin] at ih
    refine Conv.bind_ok ih ?_
    have hg := rhs_lines (rhs_good (c := e.ctx) he hwf hP)
    have hlen : (BTree.new ++ P.nodes).length = 1 + P.nodes.length := by simp [BTree.new]; omega
    simp only
    refine Conv.bind_ok (a := P.lines ++ [.exec (P.key 1)]) (by rw [← hlen] at hg; exact hg) ?_
    refine Conv.const ?_
    cases hcm : commentsLines none r.comments with
    | oof => exact absurd hcm hcl
    | panic x => simp
    | ok cm => simp

/-- The loop of `generate`. -/
def genStep (e : Env) (fuel : Nat) (acc : List RuleCode × List Bytes) (child : Nat) : Out (List RuleCode × List Bytes) := do
  let nd ← e.tree.getNode child
  if nd.rule = .r_rule then do
    let (r, hooks) ← rule e fuel acc.2 child
    .ok (acc.1 ++ [r], hooks)
  else .panic .explicit

theorem rules_conv (he : e.Named) {g : DGrammar} : ∀ {ks : List Nat} {p : Nat} {acc : List RuleCode × List Bytes}, g.WF →
    UnfL e.tree.nodes ks (g.trees p) → Cut ⟨e.src⟩ p (p + g.text.length) g.text →
    Conv (fun n => ks.foldlM (genStep e n) acc) (gramCode e.ctx acc g) := by
  induction g with
  | nil => intro ks p acc _ h _; have := UnfL.inv_nil h; subst this; exact Conv.ok _
  | cons r g ih =>
    intro ks p acc hw h hc
    obtain ⟨k, ks, rfl, a, h7⟩ := UnfL.inv_cons h
    have hl : p + (DGrammar.text (r :: g)).length = p + r.text.length + (DGrammar.text g).length := by
      simp [DGrammar.text]; omega
    rw [hl] at hc
    have hc : Cut ⟨e.src⟩ p (p + r.text.length + (DGrammar.text g).length) (r.text ++ DGrammar.text g) := hc
    have hr := rule_conv he (hooks := acc.2) (hw r (by simp)) a hc.split.1
    have a' := a
    unfold DRule.tree at a'
    obtain ⟨nd, g1, g2, _⟩ := At.rule a'
    have hs : ∀ n, (k :: ks).foldlM (genStep e n) acc = rule e n acc.2 k >>= fun y => ks.foldlM (genStep e n) (acc.1 ++ [y.1], y.2) := by
      intro n
      simp only [List.foldlM_cons, genStep, g1, Out.bind_ok, g2, if_true]
      cases rule e n acc.2 k with
      | oof => rfl
      | panic x => rfl
      | ok y => rfl
    refine Conv.congr ?_ hs
    exact Conv.bind hr fun y _ => ih (fun r hr => hw r (by simp [hr])) h7 hc.split.2

theorem generate_conv (he : e.Named) {g : DGrammar} (hw : g.WF) {nd : Node Dsl} (h1 : e.tree.getNode 0 = .ok nd)
    (h2 : nd.rule = .r_grammar) (h : UnfL e.tree.nodes nd.children (g.trees 0)) (hs : e.src = g.text) :
    Conv (fun n => generate e n) (gramCode e.ctx ([], []) g) := by
  have := rules_conv he (acc := ([], [])) hw h ⟨[], by simp [hs], rfl, by simp [hs]⟩
  refine this.congr fun n => ?_
  unfold generate
  rw [h1, Out.bind_ok, if_neg (by simp [h2])]
  rfl

end
end PP.Gen
