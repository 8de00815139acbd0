import Verif.Lemmas.DepthLR
import Verif.Props.Depth
import Verif.Props.Layout
import Verif.Props.LeftTrees
import Verif.Props.GeneratedHooked

/-! # C96: how deeply calls nest when rules are left recursive or hooked -/
set_option linter.unusedSectionVars false
namespace PP
variable {R U : Type} [DecidableEq R] {P : Parser R U} {src : Source}

/-- The limit on the nesting of calls below one closure, for a text of `len` bytes, a grammar of `rules` rules and combinators nested at
most `height` deep in each rule. -/
def depthLimit (rules height len : Nat) : Nat := ((len + 1) * (rules * (rules + 1) + 1) + rules + 2) * (rules * height)

theorem evalD_limit (hh : P.HooksOK src) {rules : List R} (hrules : ∀ r, r ∈ rules) (hwf : WellFormed P.body) {H : Nat}
    (hH : ∀ r, (P.body r).height ≤ H) {e : Expr R} (he : NoEmptyLoop P.body e) {p : Nat} (hp : p ≤ src.len) {loops depth : Nat}
    (hl : src.len + 1 ≤ loops) (hd : e.height + depthLimit rules.length H src.len ≤ depth) {parent : Nat} {st : St R U}
    (hg : Good True P src parent st) : evalD P src loops depth e parent p st ≠ .oof := by
  obtain ⟨rank, h1, h2⟩ := exists_rank hrules hwf.noCycle
  let univ : List (R × Nat) := rules.flatMap fun r => (List.range (src.len + 1)).map fun i => (r, i)
  have huniv : ∀ (r : R) p, p ≤ src.len → (r, p) ∈ univ := by
    intro r p hp
    simp only [univ, List.mem_flatMap, List.mem_map, List.mem_range]
    exact ⟨r, hrules r, p, by omega, rfl⟩
  have hlen : univ.length = rules.length * (src.len + 1) := by
    simp [univ, List.length_flatMap]
  refine evalD_depthLR hh (Nat.le_refl _) rules univ hrules huniv hwf.noLoop h1 h2 hH (by omega) depth e he rules.length (fun r _ => h2 r)
    _ p hp ?_ parent st hg (wt_le rules univ st)
  refine Nat.le_trans (Nat.add_le_add_left ?_ _) hd
  rw [hlen]
  unfold depthLimit
  rw [← Nat.succ_mul]
  refine Nat.mul_le_mul_right _ ?_
  have : (src.len + 1) * (rules.length * (rules.length + 1) + 1) =
      rules.length * (src.len + 1) * (rules.length + 1) + (src.len + 1) := by
    rw [Nat.mul_add, Nat.mul_one, ← Nat.mul_assoc, Nat.mul_comm (src.len + 1) rules.length]
  omega

theorem clear_depth_pruned (self : Publisher R) {ks : List Nat} {ts : List (Tree R)} (h : UnfL self.nodes ks ts) :
    ∀ n, Tree.htL (Tree.prune.pruneL ts) < n →
    ∀ nt parent, (ks.foldlM (fun t i => Publisher.clearFalseKernel self n t parent i) nt : Out _) ≠ .oof := by
  induction h with
  | nil => intro n _ nt parent; simp [List.foldlM, pure]
  | @cons k nd cs ks ts h1 h2 h3 ih1 ih2 =>
    intro n hn nt parent
    rw [Tree.prune.pruneL, Tree.htL_append] at hn
    rw [List.foldlM_cons]
    refine Out.bind_no_oof ?_ fun nt' _ => ih2 n (by omega) nt' parent
    obtain ⟨n, rfl⟩ : ∃ m, n = m + 1 := ⟨n - 1, by omega⟩
    unfold Publisher.clearFalseKernel
    refine Out.bind_no_oof (by simp [Publisher.getNode, h1]) fun nd' hnd => ?_
    have : nd' = nd := by simpa [Publisher.getNode, h1] using hnd.symm
    subst this
    split
    · next hcond =>
      refine Out.bind_no_oof (by unfold Publisher.addNode; split <;> simp) ?_
      rintro ⟨ci, nt1⟩ _
      refine Out.bind_no_oof ?_ fun nt2 _ => ih1 n ?_ nt2 ci
      · unfold Publisher.connect
        split
        · simp
        · exact modify_no_oof _ _ _
      · have hres : nd'.result = true := by simp only [Bool.and_eq_true] at hcond; exact hcond.1
        have hne : ¬ nd'.start = nd'.stop := by
          intro h; simp [h] at hcond
        have hsp : nd'.spanOf = some (nd'.start, nd'.stop) := by unfold Node.spanOf; rw [hres]; rfl
        rw [hsp] at hn
        simp only [Tree.prune, if_neg hne, Tree.htL] at hn
        omega
    · simp

theorem Tree.htL_le_size : ∀ ts : List (Tree R), htL ts ≤ Tree.size.sizeL ts
  | [] => by simp [htL]
  | .node r s kids :: ts => by
    have h1 := htL_le_size kids
    have h2 := htL_le_size ts
    simp only [htL, Tree.size.sizeL, Tree.size]
    omega

/-! ## C96 -/

/-- C96: in a well-formed grammar — left-recursive rules and hooked calls included — a call of any closure, at any position of the text and
from any state, nests calls no deeper than a bound that is linear in the length of the text, and no loop runs more than `len + 1` times: with
these limits it answers, and its answer is that of the program. -/
theorem C96_calls_nest_linearly (P : Parser R U) (src : Source) (hh : P.HooksOK src) (rules : List R) (hrules : ∀ r, r ∈ rules)
    (hwf : WellFormed P.body) (H : Nat) (hH : ∀ r, (P.body r).height ≤ H) {e : Expr R} (he : NoEmptyLoop P.body e) {p : Nat}
    (hp : p ≤ src.len) {loops depth : Nat} (hl : src.len + 1 ≤ loops) (hd : e.height + depthLimit rules.length H src.len ≤ depth)
    {k : Nat} {st : St R U} (hr : Reached P src Expr.Any k st) :
    ((∃ b q st', evalD P src loops depth e k p st = .ok (b, q, st')) ∨ evalD P src loops depth e k p st = .panic .keyOverflow ∨
      evalD P src loops depth e k p st = .panic .user) ∧
    ∀ n, loops + depth ≤ n → eval P src n e k p st = evalD P src loops depth e k p st := by
  obtain ⟨D, hi, hk, hlt, hpost⟩ := hr.post (lr := True) hh (fun _ => Or.inl trivial) (fun _ _ => Or.inl trivial) (loops + depth)
    (e := e) (Or.inl trivial) p
  have hno := evalD_limit hh hrules hwf hH he hp hl hd ⟨D, hi, hk, hlt⟩
  have heq := Out.le_eq (evalD_le_eval P src loops depth e k p st) hno
  refine ⟨?_, fun n hn => by rw [← heq]; exact eval_mono hn (by rw [heq]; exact hno)⟩
  rw [heq] at hpost
  generalize evalD P src loops depth e k p st = x at hno hpost
  cases x with
  | oof => exact absurd rfl hno
  | ok a => exact Or.inl ⟨a.1, a.2.1, a.2.2, rfl⟩
  | panic y => exact Or.inr (hpost.imp (fun h => by rw [h]) (fun h => by rw [h]))

/-- C96: for the entry point.  `parse` also walks the tree it returns, so its calls nest no deeper than the larger of the linear bound and
the number of nodes returned. -/
theorem C96_parse_nests_linearly (P : Parser R U) (src : Source) (hh : P.HooksOK src) (rules : List R) (hrules : ∀ r, r ∈ rules)
    (hwf : WellFormed P.body) (H : Nat) (hH : ∀ r, (P.body r).height ≤ H) {loops depth : Nat} (hl : src.len + 1 ≤ loops)
    (hd : depthLimit rules.length H src.len < depth) {n : Nat} {b : Bool} {q : Nat} {t : Publisher R}
    (h : parse P src n = .ok (b, q, t)) (ht : t.nodes.length ≤ depth) : parseD P src loops depth = .ok (b, q, t) := by
  have hno : evalD P src loops depth (.varName P.grammar) 0 0 (St.new P.grammar P.userInit) ≠ .oof :=
    evalD_limit hh hrules hwf hH (e := .varName P.grammar) trivial (Nat.zero_le _) hl (by simp only [Expr.height]; omega) good_new
  have hpn : parseD P src loops depth ≠ .oof := by
    unfold parseD
    refine Out.bind_no_oof hno ?_
    rintro ⟨b', q', st⟩ hc
    refine Out.bind_no_oof ?_ fun _ _ => by simp
    have hc' := Out.le_eq (evalD_le_eval P src loops depth _ _ _ _) hno
    rw [hc] at hc'
    -- the same state as in `parse`
    have hsame : eval P src n (.varName P.grammar) 0 0 (St.new P.grammar P.userInit) = .ok (b', q', st) := by
      have hne : eval P src n (.varName P.grammar) 0 0 (St.new P.grammar P.userInit) ≠ .oof := by
        intro h0; rw [parse, h0] at h; cases h
      rcases Nat.le_total n (loops + depth) with hle | hle
      · rw [← eval_mono hle hne]; exact hc'
      · rw [eval_mono hle (by rw [hc']; simp)]; exact hc'
    unfold parse at h
    rw [hsame] at h
    simp only [Out.bind_ok] at h
    obtain ⟨t', hcl, h⟩ := Out.bind_eq_ok.mp h
    injection h with h
    obtain ⟨_, _, rfl⟩ : b' = b ∧ q' = q ∧ t' = t := by simpa using h
    obtain ⟨ks, ts, hr, h0, hu⟩ := eval_new_root (lr := True) P src hh (fun _ => .inl trivial) (e := .varName P.grammar) (Or.inr trivial) hc'
    have hlay := clearFalse_layout P.grammar st.pub h0 rfl hu hcl
    have hlen : t'.nodes.length = Tree.size.sizeL (Tree.prune.pruneL ts) + 2 := by
      rw [hlay]; simp [Tree.layout_length]
    have hht := Tree.htL_le_size (Tree.prune.pruneL ts)
    have hk : (ks.foldlM (fun t i => Publisher.clearFalseKernel st.pub depth t 0 i)
        { nodes := [⟨0, P.grammar, 0, 0, true, []⟩, ⟨1, P.grammar, 0, 0, true, []⟩] } : Out _) ≠ .oof :=
      clear_depth_pruned st.pub hu depth (by omega) _ 0
    have hred : st.pub.clearFalse P.grammar depth = ks.foldlM (fun t i => Publisher.clearFalseKernel st.pub depth t 0 i)
        { nodes := [⟨0, P.grammar, 0, 0, true, []⟩, ⟨1, P.grammar, 0, 0, true, []⟩] } := by
      simp [Publisher.clearFalse, Publisher.getNode, h0, Publisher.addNode, Publisher.new]
    exact hred ▸ hk
  have h1 := (C70_limits_change_no_answer P src).1 loops depth hpn (max n (loops + depth)) (by omega)
  rw [← h1]
  rw [← h]
  exact parse_mono (by omega) (by rw [h]; simp)

/-! ### The repository's left-recursive and hooked parsers -/

theorem ex5_height (r : Ex5) : (Ex5.body r).height ≤ 5 := by cases r <;> decide
theorem ex6_height (r : Ex6) : (Ex6.body r).height ≤ 7 := by cases r <;> decide
theorem ex11_height (r : Ex11) : (Ex11.body r).height ≤ 7 := by cases r <;> decide

theorem ex5Left_size : ∀ k, (ex5Left k).size = 2 * k + 2
  | 0 => rfl
  | k + 1 => by
    simp only [ex5Left, Tree.size, Tree.size.sizeL, ex5Left_size k, ex5Num]
    omega

theorem htL_cons (x : Tree R) (ts : List (Tree R)) : Tree.htL (x :: ts) = max (Tree.htL [x]) (Tree.htL ts) :=
  Tree.htL_append [x] ts

theorem ex5Left_height : ∀ k, Tree.htL [ex5Left k] = k + 2
  | 0 => by simp [ex5Left, ex5Num, Tree.htL]
  | k + 1 => by
    have h := ex5Left_height k
    have h2 : Tree.htL [ex5Num (2 * k + 2)] = 1 := by simp [ex5Num, Tree.htL]
    simp only [ex5Left, Tree.htL]
    rw [htL_cons, h, h2]
    omega

/-- C96, example 5 (left recursive): `len`-linear nesting is always enough, and it cannot be avoided although the growth of a seed is a loop:
the tree nests to the left once per minus sign and the walk over it recurses. -/
theorem C96_example5_depth (src : Source) {n : Nat} {b : Bool} {q : Nat} {t : Publisher Ex5} (h : parse ex5Parser src n = .ok (b, q, t)) :
    (∀ loops depth, src.len + 1 ≤ loops → (src.len + 1) * 195 + 75 < depth → parseD ex5Parser src loops depth = .ok (b, q, t)) ∧
    ∀ loops depth, parseD ex5Parser src loops depth = .ok (b, q, t) → q ≤ 2 * depth := by
  constructor
  · intro loops depth hl hd
    refine C96_parse_nests_linearly ex5Parser src (plain_hooksOK _ _ _) Ex5.all Ex5.mem_all wf_ex5 5 ex5_height hl ?_ h ?_
    · rw [show Ex5.all.length = 3 from rfl]; unfold depthLimit; omega
    · obtain ⟨cs, h1, h2⟩ := C71_store_layout ex5Parser src (plain_hooksOK _ _ _) h
      have hlen : t.nodes.length = Tree.size.sizeL cs + 2 := by rw [h2]; simp [Tree.layout_length]
      have htree := C47_example5_tree src h
      cases b with
      | false =>
        have e := h1.det (htree.2 rfl)
        injection e with _ _ e
        subst e
        rw [hlen]
        simp only [Tree.size.sizeL]
        omega
      | true =>
        obtain ⟨k, hq, hu⟩ := htree.1 rfl
        have e := h1.det hu
        injection e with _ _ e
        subst e
        obtain ⟨_, hrun, _⟩ := parse_layout True ex5Parser src (plain_hooksOK _ _ _) (fun _ => .inl trivial) h
        have hpos := hrun.pos.2
        rw [hlen]
        simp only [Tree.size.sizeL, Tree.size, ex5Left_size]
        omega
  · intro loops depth hd
    obtain ⟨cs, h1, h2⟩ := C70_depth_at_least_tree_height ex5Parser src (plain_hooksOK _ _ _) hd
    have htree := C47_example5_tree src h
    cases b with
    | false =>
      obtain ⟨_, hrun, _⟩ := parse_layout True ex5Parser src (plain_hooksOK _ _ _) (fun _ => .inl trivial) h
      have := hrun.pos.1 rfl
      omega
    | true =>
      obtain ⟨k, rfl, hu⟩ := htree.1 rfl
      have e := h1.det hu
      injection e with _ _ e
      subst e
      have h3 := ex5Left_height k
      simp only [Tree.htL] at h2
      omega

theorem depthLimit_4 (l : Nat) : depthLimit 4 7 l = (l + 1) * 588 + 168 := by unfold depthLimit; omega
theorem depthLimit_3 (l : Nat) : depthLimit 3 7 l = (l + 1) * 273 + 105 := by unfold depthLimit; omega

/-- C96, example 6 (two left-recursive rules): the nesting that is always enough. -/
theorem C96_example6_depth (src : Source) {n : Nat} {b : Bool} {q : Nat} {t : Publisher Ex6} (h : parse ex6Parser src n = .ok (b, q, t))
    {loops depth : Nat} (hl : src.len + 1 ≤ loops) (hd : (src.len + 1) * 588 + 168 < depth) (ht : t.nodes.length ≤ depth) :
    parseD ex6Parser src loops depth = .ok (b, q, t) := by
  refine C96_parse_nests_linearly ex6Parser src (plain_hooksOK _ _ _) Ex6.all Ex6.mem_all wf_ex6 7 ex6_height hl ?_ h ht
  exact Nat.lt_of_le_of_lt (Nat.le_of_eq (depthLimit_4 src.len)) hd

/-- C96, example 11 (the rule with a user-written hook): the nesting that is always enough. -/
theorem C96_example11_depth (src : Source) {n : Nat} {b : Bool} {q : Nat} {t : Publisher Ex11} (h : parse ex11Parser src n = .ok (b, q, t))
    {loops depth : Nat} (hl : src.len + 1 ≤ loops) (hd : (src.len + 1) * 273 + 105 < depth) (ht : t.nodes.length ≤ depth) :
    parseD ex11Parser src loops depth = .ok (b, q, t) := by
  refine C96_parse_nests_linearly ex11Parser src (Mini.unique_hooksOK Ex11.body .r_grammar src) Ex11.all Ex11.mem_all wf_ex11 7 ex11_height hl ?_ h ht
  exact Nat.lt_of_le_of_lt (Nat.le_of_eq (depthLimit_3 src.len)) hd

/-- Non-vacuity: "7-1-2" needs depth 12 (the limit of the theorem is 1246), and it is read to its end. -/
example : (match parseD ex5Parser ⟨bytesOf "7-1-2"⟩ 6 12 with | .ok (b, q, _) => some (b, q) | _ => none) = some (true, 5) ∧
    (match parseD ex5Parser ⟨bytesOf "7-1-2"⟩ 6 11 with | .oof => true | _ => false) = true := by decide +kernel

end PP
