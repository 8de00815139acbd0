import Verif.Lemmas.Depth
import Verif.Props.Termination
import Verif.Props.Json
import Mathlib.Logic.Relation

/-! # C70: how deeply calls nest -/
set_option linter.unusedSectionVars false
namespace PP
variable {R U : Type} [DecidableEq R] {P : Parser R U} {src : Source}

theorem parseD_no_oof {body : R → Expr R} {g : R} (hb : ∀ r, (body r).Plain) (hloop : ∀ r, NoEmptyLoop body (body r))
    {rank : R → Nat} {W H : Nat}
    (hrank : ∀ r r', FirstRef body (body r) r' → rank r' < rank r) (hW : ∀ r, rank r < W) (hH : ∀ r, (body r).height ≤ H)
    {m d : Nat} (hm : src.len < m) (hd : (src.len + 1) * (W * H) < d) : parseD (.plain body g) src m d ≠ .oof := by
  have hH1 : 1 ≤ H := Nat.le_trans (body g).height_pos (hH g)
  have hWH : (rank g + 1) * H ≤ W * H := Nat.mul_le_mul_right _ (hW g)
  rw [Nat.add_mul, Nat.one_mul] at hWH hd
  unfold parseD
  refine Out.bind_no_oof ?_ ?_
  · refine evalD_depth (P := .plain body g) (plain_hooksOK _ _ _) hb hloop hrank hW hH hm d (.varName g) trivial trivial (rank g + 1) (fun r h => by cases h; omega)
      0 (Nat.zero_le _) ?_ 0 _ good_new
    simp only [Expr.height, Nat.sub_zero]
    have : (rank g + 1) * H = rank g * H + H := by rw [Nat.add_mul, Nat.one_mul]
    omega
  · rintro ⟨b, q, st⟩ hc
    have hc' := Out.le_eq (evalD_le_eval (.plain body g) src m d _ _ _ _) (by rw [hc]; simp)
    rw [hc] at hc'
    obtain ⟨ks, ts, hr, h0, hu⟩ := eval_new_root (lr := False) (.plain body g) src (plain_hooksOK _ _ _)
      (fun r => Or.inr (hb r).lrFree) (e := .varName g) (Or.inr trivial) hc'
    have hp : PegT body src (.varName g) 0 b q ts := hr.pegT hb trivial
    have hht := hp.htL_le hrank hW (rank g + 1) (fun r h => by cases h; omega)
    refine Out.bind_no_oof ?_ fun _ _ => by simp
    have hle : Tree.htL ts ≤ d := by
      have h1 : src.len * W ≤ src.len * (W * H) := Nat.mul_le_mul_left _ (Nat.le_mul_of_pos_right _ hH1)
      have h2 : W ≤ W * H := Nat.le_mul_of_pos_right _ hH1
      have := hW g
      simp only [Nat.sub_zero] at hht
      omega
    have hk : (ks.foldlM (fun t i => Publisher.clearFalseKernel st.pub d t 0 i)
        { nodes := [⟨0, g, 0, 0, true, []⟩, ⟨1, g, 0, 0, true, []⟩] } : Out _) ≠ .oof := clear_depth st.pub hu d hle _ 0
    have hred : st.pub.clearFalse g d = ks.foldlM (fun t i => Publisher.clearFalseKernel st.pub d t 0 i)
        { nodes := [⟨0, g, 0, 0, true, []⟩, ⟨1, g, 0, 0, true, []⟩] } := by
      simp only [Parser.plain] at h0
      simp [Publisher.clearFalse, Publisher.getNode, h0, Publisher.addNode, Publisher.new]
    exact hred ▸ hk

/-! ### Ranks of a well-formed grammar -/

theorem countP_strict {α : Type} {p q : α → Bool} {l : List α} (h : ∀ x, p x = true → q x = true) {x : α} (hx : x ∈ l) (hq : q x = true)
    (hp : p x = false) : l.countP p < l.countP q := by
  induction l with
  | nil => cases hx
  | cons y l ih =>
    have hle : l.countP p ≤ l.countP q := List.countP_mono_left fun x _ => h x
    rw [List.countP_cons, List.countP_cons]
    rcases List.mem_cons.mp hx with rfl | hx
    · simp [hq, hp]; omega
    · have := ih hx
      by_cases hy : p y = true
      · simp [hy, h y hy]; omega
      · simp [hy]; omega

theorem exists_rank {body : R → Expr R} {rules : List R} (hrules : ∀ r, r ∈ rules)
    (hwf : WellFounded fun r' r => FirstRef body (body r) r') : ∃ rank : R → Nat,
    (∀ r r', FirstRef body (body r) r' → rank r' < rank r) ∧ ∀ r, rank r < rules.length := by
  classical
  let rel : R → R → Prop := fun r' r => FirstRef body (body r) r'
  have hirr : ∀ r, ¬ Relation.TransGen rel r r := fun r h => by
    have key : ∀ r, Acc (Relation.TransGen rel) r → ¬ Relation.TransGen rel r r := by
      intro r hr
      induction hr with
      | intro x _ ih => exact fun hx => ih x hx hx
    exact key r (hwf.transGen.apply r) h
  refine ⟨fun r => rules.countP fun r' => decide (Relation.TransGen rel r' r), fun r r' h => ?_, fun r => ?_⟩
  · refine countP_strict (x := r') (fun x hx => ?_) (hrules r') ?_ ?_
    · simp only [decide_eq_true_eq] at hx ⊢; exact hx.tail h
    · simp only [decide_eq_true_eq]; exact .single h
    · simp only [decide_eq_false_iff_not]; exact hirr r'
  · have := countP_strict (p := fun r' => decide (Relation.TransGen rel r' r)) (q := fun _ => true) (fun _ _ => rfl) (hrules r) rfl
      (by simp only [decide_eq_false_iff_not]; exact hirr r)
    simpa using this

/-! ## C70 -/

/-- C70: limiting the depth of calls and the iterations of loops separately changes no answer: an answer within the limits is the
answer of `parse`, and every answer of `parse` is within some limits. -/
theorem C70_limits_change_no_answer (P : Parser R U) (src : Source) :
    (∀ loops depth, parseD P src loops depth ≠ .oof → ∀ n, loops + depth ≤ n → parse P src n = parseD P src loops depth) ∧
    ∀ n, parse P src n ≠ .oof → parseD P src n n = parse P src n := by
  refine ⟨fun loops depth h n hn => ?_, fun n h => Out.le_eq (parse_le_parseD P src n) h⟩
  have h1 := Out.le_eq (parseD_le_parse P src loops depth) h
  rw [parse_mono hn (by rw [h1]; exact h), h1]

/-- C70: for a well-formed grammar without left-recursive references and hooked calls, the calls made by `parse` nest at most
`(len + 1) * |rules| * H` deep, where `H` bounds the nesting of combinators in any one rule; loops run at most `len + 1` times.
With these limits `parse` answers (unless the 2^32 node keys run out). -/
theorem C70_depth_is_linear (body : R → Expr R) (g : R) (src : Source) (hb : ∀ r, (body r).Plain) (rules : List R)
    (hrules : ∀ r, r ∈ rules) (hwf : WellFormed body) (H : Nat) (hH : ∀ r, (body r).height ≤ H) {loops depth : Nat}
    (hl : src.len + 1 ≤ loops) (hd : (src.len + 1) * (rules.length * H) < depth) :
    (∃ b q t, parseD (.plain body g) src loops depth = .ok (b, q, t)) ∨ parseD (.plain body g) src loops depth = .panic .keyOverflow := by
  obtain ⟨rank, h1, h2⟩ := exists_rank hrules hwf.noCycle
  have hno := parseD_no_oof (g := g) hb hwf.noLoop h1 h2 hH hl hd
  obtain ⟨N, hN⟩ := C07_plain_parse_terminates body g src rules hrules hwf
  have := (C70_limits_change_no_answer (.plain body g) src).1 loops depth hno (max N (loops + depth)) (by omega)
  rw [← this]
  exact hN _ (by omega)

theorem depth_lower (lr : Prop) (P : Parser R U) (src : Source) (hh : P.HooksOK src) (hbody : ∀ r, lr ∨ (P.body r).LRFree) {loops depth : Nat}
    {b : Bool} {q : Nat} {t : Publisher R} (h : parseD P src loops depth = .ok (b, q, t)) :
    ∃ ts, Run lr P.body src (.varName P.grammar) 0 b q ts ∧ t.Unfolds 0 (.node P.grammar (some (0, 0)) (Tree.prune.pruneL ts)) ∧
      Tree.htL (Tree.prune.pruneL ts) ≤ depth := by
  unfold parseD at h
  obtain ⟨⟨b', q', st⟩, hc, h⟩ := Out.bind_eq_ok.mp h
  obtain ⟨t', hcl, h⟩ := Out.bind_eq_ok.mp h
  injection h with h
  obtain ⟨rfl, rfl, rfl⟩ : b' = b ∧ q' = q ∧ t' = t := by simpa using h
  have hc' := Out.le_eq (evalD_le_eval P src loops depth _ _ _ _) (by rw [hc]; simp)
  rw [hc] at hc'
  obtain ⟨ks, ts, hr, h0, hu⟩ := eval_new_root (lr := lr) P src hh hbody (e := .varName P.grammar) (Or.inr trivial) hc'
  have hcl' : st.pub.clearFalse P.grammar depth = .ok t' := hcl
  obtain ⟨N, hN⟩ := clearFalse_spec P.grammar st.pub h0 rfl hu
  have hun := (hN depth).2
  rw [hcl'] at hun
  refine ⟨ts, hr, Cleaned.unfolds hun, ?_⟩
  have hred : st.pub.clearFalse P.grammar depth = ks.foldlM (fun t i => Publisher.clearFalseKernel st.pub depth t 0 i)
      { nodes := [⟨0, P.grammar, 0, 0, true, []⟩, ⟨1, P.grammar, 0, 0, true, []⟩] } := by
    simp [Publisher.clearFalse, Publisher.getNode, h0, Publisher.addNode, Publisher.new]
  rw [hred] at hcl'
  exact clear_depth_lower st.pub hu depth _ _ _ hcl'

/-- C70: the calls nest at least as deep as the returned tree (whatever the grammar): an answer within a depth limit has a tree no
higher than that limit. -/
theorem C70_depth_at_least_tree_height (P : Parser R U) (src : Source) (hh : P.HooksOK src) {loops depth : Nat}
    {b : Bool} {q : Nat} {t : Publisher R} (h : parseD P src loops depth = .ok (b, q, t)) :
    ∃ cs, t.Unfolds 0 (.node P.grammar (some (0, 0)) cs) ∧ Tree.htL cs ≤ depth := by
  obtain ⟨ts, _, h1, h2⟩ := depth_lower True P src hh (fun _ => .inl trivial) h
  exact ⟨_, h1, h2⟩

/-! ### Nested brackets in JSON -/

/-- `[[…]]`, `n` brackets deep. -/
def nested (n : Nat) : List UInt8 := List.replicate n 91 ++ List.replicate n 93

theorem nested_array {n : Nat} (hn : 2 * n < 4294967296) : ∀ k i, i + (k + 1) = n → ∃ ts,
    PegT Json.body ⟨nested n⟩ (.varName .r_array) i true (2 * n - i) ts ∧ k + 1 ≤ Tree.htL (Tree.prune.pruneL ts) := by
  have hlen : (⟨nested n⟩ : Source).len = 2 * n := by simp [Source.len, nested]; omega
  have hop : ∀ j, j < n → (⟨nested n⟩ : Source).bytes[j]? = some 91 := fun j hj => by simp [nested, List.getElem?_append, hj]
  have hcl : ∀ j, n ≤ j → j < 2 * n → (⟨nested n⟩ : Source).bytes[j]? = some 93 := fun j hj hj' => by
    simp only [nested, List.getElem?_append, List.length_replicate, if_neg (Nat.not_lt.mpr hj), List.getElem?_replicate]
    rw [if_pos (by omega)]
  have hrem : ∀ j, j ≤ 2 * n → Gen.Rem ⟨nested n⟩ j ((nested n).drop j) := fun j hj => ⟨by simp [nested]; omega, by simp [nested]; omega, rfl⟩
  have hbr : ∀ j, j < 2 * n → ∀ c : UInt8, c ≠ 91 → c ≠ 93 → (⟨nested n⟩ : Source).bytes[j]? ≠ some c := fun j hj c h1 h2 => by
    by_cases h : j < n
    · rw [hop j h]; simpa using fun x => h1 x.symm
    · rw [hcl j (by omega) hj]; simpa using fun x => h2 x.symm
  have hhd : ∀ j c, ((nested n).drop j).head? = some c ↔ (⟨nested n⟩ : Source).bytes[j]? = some c := fun j c => by
    rw [List.head?_drop]
  have hws : ∀ j, j < 2 * n → ∃ ts, PegT Json.body ⟨nested n⟩ (.inlined .r_ws) j true j ts := fun j hj => by
    have tf : ∀ c : UInt8, c ≠ 91 → c ≠ 93 → Peg Json.body ⟨nested n⟩ (.terminal c) j false j := fun c h1 h2 => .terminal_fail fun x => hbr j hj c h1 h2 x.2
    exact (Peg.inl (.star_stop (.sub_fail (.choice_fail (.choice_fail (.choice_fail (tf 10 (by decide) (by decide)) (tf 9 (by decide) (by decide)))
      (tf 13 (by decide) (by decide))) (tf 32 (by decide) (by decide)))))).pegT
  intro k
  induction k with
  | zero =>
    intro i hi
    obtain ⟨u1, hu1⟩ := hws n (by omega)
    have hbad : Peg Json.body ⟨nested n⟩ (.inlined .r_value) n false n := by
      refine LPeg.toPeg (JsonText.bad_value fun c hc => ?_) n (hrem n (by omega))
      rw [hhd, hcl n (by omega) (by omega)] at hc
      injection hc with hc
      subst hc
      simp [JsonText.StartB, JsonText.DigitB]
    obtain ⟨u2, hu2⟩ := hbad.pegT
    have hni : n = i + 1 := by omega
    replace hu1 : PegT Json.body ⟨nested n⟩ (.inlined .r_ws) (i + 1) true (i + 1) u1 := hni ▸ hu1
    replace hu2 : PegT Json.body ⟨nested n⟩ (.inlined .r_value) (i + 1) false (i + 1) u2 := hni ▸ hu2
    have ho : PegT Json.body ⟨nested n⟩ (.terminal 91) i true (i + 1) [] := .terminal_ok (by rw [hlen]; omega) (hop i (by omega))
    have hc : PegT Json.body ⟨nested n⟩ (.terminal 93) (i + 1) true (i + 1 + 1) [] :=
      .terminal_ok (by rw [hlen]; omega) (hcl _ (by omega) (by omega))
    have this : PegT Json.body ⟨nested n⟩ (.varName .r_array) i true (i + 1 + 1) _ :=
      .ref (.seq_ok (.seq_ok ho (.sub_ok (.choice_right (.inl (.seq_fail1 (.inl (.seq_fail1 (.seq_fail2 hu1 hu2))))) hu1))) hc)
    rw [show i + 1 + 1 = 2 * n - i by omega] at this
    refine ⟨_, this, ?_⟩
    simp only [Tree.mk, if_true, Tree.prune.pruneL, Tree.prune, if_neg (show ¬ i = 2 * n - i by omega), List.append_nil, Tree.htL]
    omega
  | succ k ih =>
    intro i hi
    obtain ⟨ts, hts, hht⟩ := ih (i + 1) (by omega)
    obtain ⟨u1, hu1⟩ := hws (i + 1) (by omega)
    obtain ⟨u2, hu2⟩ := hws (2 * n - (i + 1)) (by omega)
    have hobj : Peg Json.body ⟨nested n⟩ (.varName .r_object) (i + 1) false (i + 1) := by
      refine LPeg.toPeg (JsonText.bad_object ?_) (i + 1) (hrem _ (by omega))
      rw [Ne, hhd, hop (i + 1) (by omega)]; decide
    obtain ⟨u3, hu3⟩ := hobj.pegT
    have hcomma : PegT Json.body ⟨nested n⟩ (.terminal 44) (2 * n - (i + 1)) false (2 * n - (i + 1)) [] :=
      .terminal_fail fun x => hbr _ (by omega) 44 (by decide) (by decide) x.2
    have hval : PegT Json.body ⟨nested n⟩ (.inlined .r_value) (i + 1) true (2 * n - (i + 1)) (u3 ++ ts) :=
      .inl (.choice_left (.choice_left (.choice_left (.choice_left (.choice_left (.choice_right hu3 hts))))))
    have ho : PegT Json.body ⟨nested n⟩ (.terminal 91) i true (i + 1) [] := .terminal_ok (by rw [hlen]; omega) (hop i (by omega))
    have hc : PegT Json.body ⟨nested n⟩ (.terminal 93) (2 * n - (i + 1)) true (2 * n - (i + 1) + 1) [] :=
      .terminal_ok (by rw [hlen]; omega) (hcl _ (by omega) (by omega))
    have this : PegT Json.body ⟨nested n⟩ (.varName .r_array) i true (2 * n - (i + 1) + 1) _ :=
      .ref (.seq_ok (.seq_ok ho (.sub_ok (.choice_left (.inl (.seq_ok (.inl (.seq_ok (.seq_ok hu1 hval) hu2))
        (.star_stop (.sub_fail (.seq_fail1 hcomma)))))))) hc)
    rw [show 2 * n - (i + 1) + 1 = 2 * n - i by omega] at this
    refine ⟨_, this, ?_⟩
    simp only [Tree.mk, if_true, Tree.prune.pruneL, Tree.prune, if_neg (show ¬ i = 2 * n - i by omega), List.append_nil, Tree.htL,
      pruneL_append, Tree.htL_append]
    omega

/-- C70: the JSON parser accepts `n` nested pairs of brackets, but no depth below `n` suffices. -/
theorem C70_json_nesting_needs_depth (n : Nat) (h0 : 0 < n) (hn : n < 69000000) :
    (∃ t N, ∀ m, N ≤ m → parse jsonParser ⟨nested n⟩ m = .ok (true, 2 * n, t)) ∧
    ∀ loops depth b q t, depth < n → parseD jsonParser ⟨nested n⟩ loops depth ≠ .ok (b, q, t) := by
  obtain ⟨ts, hts, hht⟩ := nested_array (n := n) (by omega) (n - 1) 0 (by omega)
  have hlen : (⟨nested n⟩ : Source).bytes.length = 2 * n := by simp [nested]; omega
  have hl : (⟨nested n⟩ : Source).len = 2 * n := by unfold Source.len; omega
  have hrem : Gen.Rem ⟨nested n⟩ 0 (nested n) := ⟨by omega, by omega, rfl⟩
  have hend : (⟨nested n⟩ : Source).bytes[2 * n]? = none := by rw [List.getElem?_eq_none_iff]; omega
  have hws : ∀ j, (j = 0 ∨ j = 2 * n) → ∃ ts, PegT Json.body ⟨nested n⟩ (.inlined .r_ws) j true j ts := fun j hj => by
    have tf : ∀ c : UInt8, c ≠ 91 → Peg Json.body ⟨nested n⟩ (.terminal c) j false j := fun c h1 => .terminal_fail fun x => by
      rcases hj with rfl | rfl
      · have := x.2
        simp only [nested, List.getElem?_append, List.length_replicate, if_pos h0, List.getElem?_replicate] at this
        exact h1 (by simpa using this.symm)
      · rw [hend] at x; simp at x
    exact (Peg.inl (.star_stop (.sub_fail (.choice_fail (.choice_fail (.choice_fail (tf 10 (by decide)) (tf 9 (by decide)))
      (tf 13 (by decide))) (tf 32 (by decide)))))).pegT
  obtain ⟨u1, hu1⟩ := hws 0 (.inl rfl)
  obtain ⟨u2, hu2⟩ := hws (2 * n) (.inr rfl)
  have hobj : Peg Json.body ⟨nested n⟩ (.varName .r_object) 0 false 0 := by
    refine LPeg.toPeg (JsonText.bad_object ?_) 0 hrem
    obtain ⟨m, rfl⟩ : ∃ m, n = m + 1 := ⟨n - 1, by omega⟩
    simp [nested, List.replicate_succ]
  obtain ⟨u3, hu3⟩ := hobj.pegT
  have hgr : PegT Json.body ⟨nested n⟩ (.varName .r_grammar) 0 true (2 * n) _ :=
    .ref (.ref (.inl (.seq_ok (.seq_ok hu1 (.inl (.choice_left (.choice_left (.choice_left (.choice_left (.choice_left
      (.choice_right hu3 hts)))))))) hu2)))
  constructor
  · obtain ⟨b, q, t, ⟨N, hN⟩, _⟩ := C69_json_language ⟨nested n⟩ (by omega)
    obtain ⟨rfl, rfl, _⟩ := C06_tree_is_the_peg_tree Json.body .r_grammar ⟨nested n⟩ json_plain (hN N (Nat.le_refl _)) hgr
    exact ⟨t, N, hN⟩
  · intro loops depth b q t hd h
    obtain ⟨ts', h1, _, h2⟩ := depth_lower False jsonParser ⟨nested n⟩ (plain_hooksOK _ _ _) (fun r => Or.inr (json_plain r).lrFree) h
    obtain ⟨rfl, rfl, rfl⟩ := (h1.pegT json_plain trivial).det hgr
    simp only [Tree.mk, if_true, Tree.prune.pruneL, Tree.prune, if_neg (show ¬ 0 = 2 * n by omega), List.append_nil, Tree.htL,
      pruneL_append, Tree.htL_append] at h2
    omega

theorem json_height (r : Json) : (Json.body r).height ≤ 13 := by cases r <;> decide
theorem dsl_height (r : Dsl) : (Dsl.body r).height ≤ 12 := by cases r <;> decide

/-- C70, JSON: nesting depth `31 * 13 = 403` per byte is always enough. -/
theorem C70_json_depth (src : Source) (hs : src.bytes.length < 138000000) {loops depth : Nat} (hl : src.bytes.length + 1 ≤ loops)
    (hd : (src.bytes.length + 1) * 403 < depth) :
    ∃ b q t, parseD jsonParser src loops depth = .ok (b, q, t) ∧ ((b = true ∧ q = src.bytes.length) ↔ JsonText.IsJson src.bytes) := by
  have hlen : src.len = src.bytes.length := by unfold Source.len; omega
  obtain ⟨b, q, t, ⟨N, hN⟩, hiff⟩ := C69_json_language src hs
  have hno : parseD jsonParser src loops depth ≠ .oof := by
    rcases C70_depth_is_linear Json.body .r_grammar src json_plain Json.all Json.mem_all wf_json 13 json_height (loops := loops) (depth := depth)
      (by omega) (by rw [hlen, show Json.all.length * 13 = 403 from rfl]; exact hd) with ⟨b, q, t, h⟩ | h
    · rw [show jsonParser = .plain Json.body .r_grammar from rfl, h]; simp
    · rw [show jsonParser = .plain Json.body .r_grammar from rfl, h]; simp
  refine ⟨b, q, t, ?_, hiff⟩
  rw [← (C70_limits_change_no_answer jsonParser src).1 loops depth hno (max N (loops + depth)) (by omega)]
  exact hN _ (by omega)

/-- C70, the generator's own parser: nesting depth `52 * 12 = 624` per byte is always enough to parse a grammar file. -/
theorem C70_dsl_depth (src : Source) (hs : src.len < 82000000) {loops depth : Nat} (hl : src.len + 1 ≤ loops)
    (hd : (src.len + 1) * 624 < depth) : ∃ b q t, parseD dslParser src loops depth = .ok (b, q, t) ∧
      ∃ N, ∀ n, N ≤ n → parse dslParser src n = .ok (b, q, t) := by
  obtain ⟨b, q, t, _, N, hN⟩ := C08_dsl_parse_is_total src hs
  have hno : parseD dslParser src loops depth ≠ .oof := by
    rcases C70_depth_is_linear Dsl.body .r_grammar src dsl_plain Dsl.all Dsl.mem_all wf_dsl 12 dsl_height (loops := loops) (depth := depth)
      hl (by rw [show Dsl.all.length * 12 = 624 from rfl]; exact hd) with ⟨b, q, t, h⟩ | h
    · rw [show dslParser = .plain Dsl.body .r_grammar from rfl, h]; simp
    · rw [show dslParser = .plain Dsl.body .r_grammar from rfl, h]; simp
  refine ⟨b, q, t, ?_, N, hN⟩
  rw [← (C70_limits_change_no_answer dslParser src).1 loops depth hno (max N (loops + depth)) (by omega)]
  exact hN _ (by omega)

/-- Non-vacuity, and how loose the constants are: `[[]]` needs depth 55. -/
example : (match parseD jsonParser ⟨nested 2⟩ 5 55 with | .ok (b, q, _) => some (b, q) | _ => none) = some (true, 4) ∧
    (match parseD jsonParser ⟨nested 2⟩ 5 54 with | .oof => true | _ => false) = true := by decide +kernel

example : ∃ b q t, parseD dslParser ⟨bytesOf "<a>"⟩ 4 2497 = .ok (b, q, t) ∧ ∃ N, ∀ n, N ≤ n → parse dslParser ⟨bytesOf "<a>"⟩ n = .ok (b, q, t) :=
  C70_dsl_depth _ (by decide) (by decide) (by decide)

end PP
