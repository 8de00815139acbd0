import Verif.Lemmas.Rs.Leaves

/-! # The expression functions of constructor.rs, executed -/
namespace PP.Rs
open Gen

variable (ord : List Val → List Val) {e : Gen.Env} (L : Val)

/-! ## The loops as folds -/

variable (e) in
def childStep (f : Dsl → Option (Acc → Nat → Out (Nat × Acc))) (s : Nat × Acc) (i : Nat) : Out (Nat × Acc) := do
  let child ← e.tree.getNode i
  match f child.rule with
  | none => .panic .explicit
  | some g => g s.2 i

theorem childLoop_eq (f : Dsl → Option (Acc → Nat → Out (Nat × Acc))) (is : List Nat) (ret : Nat) (a : Acc) : childLoop e f is ret a = is.foldlM (childStep e f) (ret, a) := by
  induction is generalizing ret a with
  | nil => rfl
  | cons i is ih =>
    rw [childLoop, List.foldlM_cons, childStep]
    cases e.tree.getNode i with
    | oof => rfl
    | panic q => rfl
    | ok nd =>
      simp only [Out.bind_ok]
      cases f nd.rule with
      | none => rfl
      | some g =>
        simp only
        cases g a i with
        | oof => rfl
        | panic q => rfl
        | ok r => simp only [Out.bind_ok]; exact ih _ _

variable (e) in
def chainStep (r : Reference) (g : Acc → Nat → Out (Nat × Acc)) (s : Option Nat × Acc) (i : Nat) : Out (Option Nat × Acc) := do
  let child ← e.tree.getNode i
  if child.rule ≠ .r_atom then .panic .explicit
  else do
    let (k, a) ← g s.2 i
    match s.1 with
    | none => .ok (some k, a)
    | some l => .ok (some (a.1.push r (some l) (some k)).1, (a.1.push r (some l) (some k)).2, a.2)

theorem chainLoop_eq (r : Reference) (g : Acc → Nat → Out (Nat × Acc)) (is : List Nat) (s : Option Nat × Acc) :
    chainLoop e r g is s.1 s.2 = (is.foldlM (chainStep e r g) s >>= fun s => .ok (s.1.getD 0, s.2)) := by
  induction is generalizing s with
  | nil => rfl
  | cons i is ih =>
    rw [chainLoop, List.foldlM_cons, chainStep]
    cases e.tree.getNode i with
    | oof => rfl
    | panic q => rfl
    | ok nd =>
      simp only [Out.bind_ok]
      split
      · rfl
      · cases g s.2 i with
        | oof => rfl
        | panic q => rfl
        | ok r =>
          simp only [Out.bind_ok]
          obtain ⟨l, a⟩ := s
          cases l with
          | none => exact ih (_, _)
          | some l => exact ih (_, _, _)

/-- `for` with a counter -/
theorem forN_count {σ β : Type} {F : Val → Env → Res} {e : β → Val} {E : Nat → σ → Env} {step : σ → β → Out σ} {P : Nat → σ → Prop} {xs : List β} {s : σ} {env : Env}
    (he : env = E 0 s) (hP : P 0 s)
    (h : ∀ c b, c < xs.length → b ∈ xs → ∀ s, P c s → (F (e b) (E c s)).Round (step s b) (P (c + 1)) (E (c + 1))) :
    Loop (forN F (xs.map e) env) (xs.foldlM step s) (P xs.length) (E xs.length) := by
  subst he
  suffices H : ∀ ys : List β, ∀ c s, c + ys.length = xs.length → (∀ y ∈ ys, y ∈ xs) → P c s →
      Loop (forN F (ys.map e) (E c s)) (ys.foldlM step s) (P xs.length) (E xs.length) from H xs 0 s (by simp) (fun _ h => h) hP
  intro ys
  induction ys with
  | nil =>
    intro c s hx _ hP
    simp only [List.length_nil, Nat.add_zero] at hx
    subst hx
    exact ⟨rfl, hP⟩
  | cons b ys ih =>
    intro c s hx hy hP
    simp only [List.length_cons] at hx
    have hb := h c b (by omega) (hy b (by simp)) s hP
    rw [List.map_cons, forN, List.foldlM_cons]
    cases ho : step s b with
    | oof => trivial
    | panic q =>
      rw [ho] at hb
      have hb : F (e b) (E c s) = .panic := hb
      rw [hb]
      rfl
    | ok s1 =>
      rw [ho] at hb
      obtain ⟨⟨v, hv⟩, hp⟩ := hb
      rw [hv]
      exact ih _ _ (by omega) (fun y h => hy y (by simp [h])) hp

/-! ## The leaves keep the hooks -/

theorem bind_ok_cases {α β : Type} {o : Out α} {f : α → Out β} {r : β} (h : (o >>= f) = .ok r) : ∃ a, o = .ok a ∧ f a = .ok r := by
  cases o with
  | oof => cases h
  | panic q => cases h
  | ok a => exact ⟨a, rfl, h⟩

theorem terminal_hooks {a : Acc} {i : Nat} {r} (h : terminal e a i = .ok r) : r.2.2 = a.2 := by
  rw [terminal] at h
  obtain ⟨nd, -, h⟩ := bind_ok_cases h
  split at h
  · cases h
  · split at h
    · cases h; rfl
    · obtain ⟨c, -, h⟩ := bind_ok_cases h
      cases h
      rfl

theorem varName_hooks {a : Acc} {i : Nat} {r} (h : varName e a i = .ok r) : r.2.2 = a.2 := by
  rw [varName] at h
  obtain ⟨nd, -, h⟩ := bind_ok_cases h
  obtain ⟨c, -, h⟩ := bind_ok_cases h
  split at h
  · obtain ⟨c, -, h⟩ := bind_ok_cases h
    cases h
    rfl
  · split at h <;> (cases h; rfl)

theorem range_hooks {a : Acc} {i : Nat} {r} (h : orderedChoiceMatchRange e a i = .ok r) : r.2.2 = a.2 := by
  rw [orderedChoiceMatchRange] at h
  obtain ⟨nd, -, h⟩ := bind_ok_cases h
  obtain ⟨c, -, h⟩ := bind_ok_cases h
  cases h
  rfl

theorem string_hooks {a : Acc} {i : Nat} {r} (h : stringTerminal e a i = .ok r) : r.2.2 = a.2 := by
  rw [stringTerminal] at h
  obtain ⟨nd, -, h⟩ := bind_ok_cases h
  obtain ⟨c, -, h⟩ := bind_ok_cases h
  cases h
  rfl

/-! ## The functions -/

theorem round_explicit {α : Type} {r : Res} {o : Out α} {P : α → Prop} {E : α → Env} (ho : o = .panic .explicit) (h : r = .panic) : r.Round o P E := by
  subst ho
  exact h

theorem CRes.Sim.of_ok {α : Type} {r : CRes} {o : Out α} {f : α → CRes} {a : α} (h : r.Sim o f) (ho : o = .ok a) : r = f a := by
  subst ho
  exact h

theorem CRes.Sim.of_panic {α : Type} {r : CRes} {o : Out α} {f : α → CRes} {q} (h : r.Sim o f) (ho : o = .panic q) : r = .panic := by
  subst ho
  exact h

/-- The arguments of the expression functions -/
local notation "xargs(" e "," L "," a "," i ")" => [Val.vec (List.map Val.str (Prod.snd a)), L, encOut (Prod.fst a), encSym (Gen.Env.src e) (Gen.Env.sym e), encTree (Gen.Env.tree e), Val.str (Gen.Env.src e), encKey i]

variable (e) in
/-- A function of the text does what a function of the model does. -/
def Does (M : Nat) (f : Rs.Fn) (o : Acc → Nat → Out (Nat × Acc)) : Prop :=
  ∀ a i m, M ≤ m → (callN (World.gen ord) m f xargs(e, L, a, i)).Sim (o a i) fun r => .ok (encK r.1) xargs(e, L, r.2, i)

section
variable {ord L} {M : Nat} {f : Rs.Fn} {o : Acc → Nat → Out (Nat × Acc)}

theorem Does.panic (h : Does ord e L M f o) {a i q} (ho : o a i = .panic q) {m} (hm : M ≤ m) : callN (World.gen ord) m f xargs(e, L, a, i) = .panic := by
  have := h a i m hm
  rw [ho] at this
  exact this

theorem Does.ok (h : Does ord e L M f o) {a i r} (ho : o a i = .ok r) {m} (hm : M ≤ m) :
    callN (World.gen ord) m f xargs(e, L, a, i) = .ok (encK r.1) xargs(e, L, r.2, i) := by
  have := h a i m hm
  rw [ho] at this
  exact this

end

theorem does_rhs {M n : Nat} (h1 : Does ord e L M Ast.GeneratedCode.ordered_choice (expr e n .orderedChoice)) (h2 : Does ord e L M Ast.GeneratedCode.sequence (expr e n .sequence)) (h3 : Does ord e L M Ast.GeneratedCode.atom (expr e n .atom))
    (hM : 3 ≤ M) : Does ord e L (M + 1) Ast.GeneratedCode.rhs (expr e (n + 1) .rhs) := by
  intro a i m hm
  rw [callN_succ rfl rfl (by omega), expr]
  rcases getNode_cases e.tree i with ⟨nd, h, hmem⟩ | ⟨q, h⟩
  · rw [h]
    simp only [Out.bind_ok]
    rw [childLoop_eq]
    rs [Ast.GeneratedCode.rhs, callMeth_pub, call_get_node ord h, callMeth_node, call_get_children, cast, items, Nat.zero_mod]
    generalize hR : forN _ _ _ = R
    generalize hO : (List.foldlM _ _ _ : Out _) = O
    have R : Loop R O (fun _ => True) fun s => [(n!"ret_key", encK s.1), (n!"rhs_node", encNode nd), (n!"hooked_call_imports_required", .vec (s.2.2.map .str)), (n!"left_recursive_rules", L),
        (n!"out_tree", encOut s.2.1), (n!"symbol_table", encSym e.src e.sym), (n!"tree", encTree e.tree), (n!"source", .str e.src), (n!"index", encKey i)] := by
      rw [← hR, ← hO]
      refine forN_loop rfl trivial fun b _ s _ => ?_
      rw [childStep]
      simp only [inScope]
      rcases getNode_cases e.tree b with ⟨cd, h, hmem⟩ | ⟨q, h⟩
      · rw [h]
        simp only [Out.bind_ok]
        by_cases hr : cd.rule = .r_ordered_choice
        · rw [hr]
          simp only
          cases ho : expr e n .orderedChoice s.2 b with
          | oof => trivial
          | panic q =>
            refine .panic ?_
            rs [callMeth_pub, call_get_node ord h, fieldVal_rule, pm_ordered_choice, hr, Does.panic h1 ho]
          | ok r =>
            refine .ok (v := unit) ?_ trivial
            rs [callMeth_pub, call_get_node ord h, fieldVal_rule, pm_ordered_choice, hr, Does.ok h1 ho]
        rename _ => n1
        by_cases hr : cd.rule = .r_sequence
        · rw [hr]
          simp only
          cases ho : expr e n .sequence s.2 b with
          | oof => trivial
          | panic q =>
            refine .panic ?_
            rs [callMeth_pub, call_get_node ord h, fieldVal_rule, pm_ordered_choice, pm_sequence, hr, Does.panic h2 ho]
          | ok r =>
            refine .ok (v := unit) ?_ trivial
            rs [callMeth_pub, call_get_node ord h, fieldVal_rule, pm_ordered_choice, pm_sequence, hr, Does.ok h2 ho]
        rename _ => n2
        by_cases hr : cd.rule = .r_atom
        · rw [hr]
          simp only
          cases ho : expr e n .atom s.2 b with
          | oof => trivial
          | panic q =>
            refine .panic ?_
            rs [callMeth_pub, call_get_node ord h, fieldVal_rule, pm_ordered_choice, pm_sequence, pm_atom, hr, Does.panic h3 ho]
          | ok r =>
            refine .ok (v := unit) ?_ trivial
            rs [callMeth_pub, call_get_node ord h, fieldVal_rule, pm_ordered_choice, pm_sequence, pm_atom, hr, Does.ok h3 ho]
        rename _ => n3
        refine round_explicit ?_ ?_
        · revert n1 n2 n3; cases cd.rule <;> simp
        rs [callMeth_pub, call_get_node ord h, fieldVal_rule, pm_ordered_choice, pm_sequence, pm_atom, n1, n2, n3, macroCall]
      · rw [h]
        refine .panic ?_
        rs [callMeth_pub, call_get_node_panic ord h]
    clear hR hO
    loop_end
  · rw [h]
    rs [Ast.GeneratedCode.rhs, callMeth_pub, call_get_node_panic ord h]
    rfl

theorem does_atom {M n : Nat} (h1 : Does ord e L M Ast.GeneratedCode.and_predicate (expr e n .andPredicate)) (h2 : Does ord e L M Ast.GeneratedCode.not_predicate (expr e n .notPredicate)) (h3 : Does ord e L M Ast.GeneratedCode.one_or_more (expr e n .oneOrMore)) (h4 : Does ord e L M Ast.GeneratedCode.zero_or_more (expr e n .zeroOrMore)) (h5 : Does ord e L M Ast.GeneratedCode.optional (expr e n .optional)) (h6 : Does ord e L M Ast.GeneratedCode.nucleus (expr e n .nucleus))
    (hM : 3 ≤ M) : Does ord e L (M + 1) Ast.GeneratedCode.atom (expr e (n + 1) .atom) := by
  intro a i m hm
  rw [callN_succ rfl rfl (by omega), expr]
  rcases getNode_cases e.tree i with ⟨nd, h, hmem⟩ | ⟨q, h⟩
  · rw [h]
    simp only [Out.bind_ok]
    rw [childLoop_eq]
    rs [Ast.GeneratedCode.atom, callMeth_pub, call_get_node ord h, callMeth_node, call_get_children, cast, items, Nat.zero_mod]
    generalize hR : forN _ _ _ = R
    generalize hO : (List.foldlM _ _ _ : Out _) = O
    have R : Loop R O (fun _ => True) fun s => [(n!"ret_key", encK s.1), (n!"node", encNode nd), (n!"hooked_call_imports_required", .vec (s.2.2.map .str)), (n!"left_recursive_rules", L),
        (n!"out_tree", encOut s.2.1), (n!"symbol_table", encSym e.src e.sym), (n!"tree", encTree e.tree), (n!"source", .str e.src), (n!"index", encKey i)] := by
      rw [← hR, ← hO]
      refine forN_loop rfl trivial fun b _ s _ => ?_
      rw [childStep]
      simp only [inScope]
      rcases getNode_cases e.tree b with ⟨cd, h, hmem⟩ | ⟨q, h⟩
      · rw [h]
        simp only [Out.bind_ok]
        by_cases hr : cd.rule = .r_and_predicate
        · rw [hr]
          simp only
          cases ho : expr e n .andPredicate s.2 b with
          | oof => trivial
          | panic q =>
            refine .panic ?_
            rs [callMeth_pub, call_get_node ord h, fieldVal_rule, pm_and_predicate, hr, Does.panic h1 ho]
          | ok r =>
            refine .ok (v := unit) ?_ trivial
            rs [callMeth_pub, call_get_node ord h, fieldVal_rule, pm_and_predicate, hr, Does.ok h1 ho]
        rename _ => n1
        by_cases hr : cd.rule = .r_not_predicate
        · rw [hr]
          simp only
          cases ho : expr e n .notPredicate s.2 b with
          | oof => trivial
          | panic q =>
            refine .panic ?_
            rs [callMeth_pub, call_get_node ord h, fieldVal_rule, pm_and_predicate, pm_not_predicate, hr, Does.panic h2 ho]
          | ok r =>
            refine .ok (v := unit) ?_ trivial
            rs [callMeth_pub, call_get_node ord h, fieldVal_rule, pm_and_predicate, pm_not_predicate, hr, Does.ok h2 ho]
        rename _ => n2
        by_cases hr : cd.rule = .r_one_or_more
        · rw [hr]
          simp only
          cases ho : expr e n .oneOrMore s.2 b with
          | oof => trivial
          | panic q =>
            refine .panic ?_
            rs [callMeth_pub, call_get_node ord h, fieldVal_rule, pm_and_predicate, pm_not_predicate, pm_one_or_more, hr, Does.panic h3 ho]
          | ok r =>
            refine .ok (v := unit) ?_ trivial
            rs [callMeth_pub, call_get_node ord h, fieldVal_rule, pm_and_predicate, pm_not_predicate, pm_one_or_more, hr, Does.ok h3 ho]
        rename _ => n3
        by_cases hr : cd.rule = .r_zero_or_more
        · rw [hr]
          simp only
          cases ho : expr e n .zeroOrMore s.2 b with
          | oof => trivial
          | panic q =>
            refine .panic ?_
            rs [callMeth_pub, call_get_node ord h, fieldVal_rule, pm_and_predicate, pm_not_predicate, pm_one_or_more, pm_zero_or_more, hr, Does.panic h4 ho]
          | ok r =>
            refine .ok (v := unit) ?_ trivial
            rs [callMeth_pub, call_get_node ord h, fieldVal_rule, pm_and_predicate, pm_not_predicate, pm_one_or_more, pm_zero_or_more, hr, Does.ok h4 ho]
        rename _ => n4
        by_cases hr : cd.rule = .r_optional
        · rw [hr]
          simp only
          cases ho : expr e n .optional s.2 b with
          | oof => trivial
          | panic q =>
            refine .panic ?_
            rs [callMeth_pub, call_get_node ord h, fieldVal_rule, pm_and_predicate, pm_not_predicate, pm_one_or_more, pm_zero_or_more, pm_optional, hr, Does.panic h5 ho]
          | ok r =>
            refine .ok (v := unit) ?_ trivial
            rs [callMeth_pub, call_get_node ord h, fieldVal_rule, pm_and_predicate, pm_not_predicate, pm_one_or_more, pm_zero_or_more, pm_optional, hr, Does.ok h5 ho]
        rename _ => n5
        by_cases hr : cd.rule = .r_nucleus
        · rw [hr]
          simp only
          cases ho : expr e n .nucleus s.2 b with
          | oof => trivial
          | panic q =>
            refine .panic ?_
            rs [callMeth_pub, call_get_node ord h, fieldVal_rule, pm_and_predicate, pm_not_predicate, pm_one_or_more, pm_zero_or_more, pm_optional, pm_nucleus, hr, Does.panic h6 ho]
          | ok r =>
            refine .ok (v := unit) ?_ trivial
            rs [callMeth_pub, call_get_node ord h, fieldVal_rule, pm_and_predicate, pm_not_predicate, pm_one_or_more, pm_zero_or_more, pm_optional, pm_nucleus, hr, Does.ok h6 ho]
        rename _ => n6
        refine round_explicit ?_ ?_
        · revert n1 n2 n3 n4 n5 n6; cases cd.rule <;> simp
        rs [callMeth_pub, call_get_node ord h, fieldVal_rule, pm_and_predicate, pm_not_predicate, pm_one_or_more, pm_zero_or_more, pm_optional, pm_nucleus, n1, n2, n3, n4, n5, n6, macroCall]
      · rw [h]
        refine .panic ?_
        rs [callMeth_pub, call_get_node_panic ord h]
    clear hR hO
    loop_end
  · rw [h]
    rs [Ast.GeneratedCode.atom, callMeth_pub, call_get_node_panic ord h]
    rfl

theorem does_optional {M n : Nat} (h1 : Does ord e L M Ast.GeneratedCode.nucleus (expr e n .nucleus))
    (hM : 3 ≤ M) : Does ord e L (M + 1) Ast.GeneratedCode.optional (expr e (n + 1) .optional) := by
  intro a i m hm
  rw [callN_succ rfl rfl (by omega), expr]
  rcases getNode_cases e.tree i with ⟨nd, h, hmem⟩ | ⟨q, h⟩
  · rw [h]
    simp only [Out.bind_ok]
    rw [childLoop_eq]
    rs [Ast.GeneratedCode.optional, callMeth_pub, call_get_node ord h, callMeth_node, call_get_children, cast, items, Nat.zero_mod]
    generalize hR : forN _ _ _ = R
    generalize hO : (List.foldlM _ _ _ : Out _) = O
    have R : Loop R O (fun _ => True) fun s => [(n!"ret_key", encK s.1), (n!"node", encNode nd), (n!"hooked_call_imports_required", .vec (s.2.2.map .str)), (n!"left_recursive_rules", L),
        (n!"out_tree", encOut s.2.1), (n!"symbol_table", encSym e.src e.sym), (n!"tree", encTree e.tree), (n!"source", .str e.src), (n!"index", encKey i)] := by
      rw [← hR, ← hO]
      refine forN_loop rfl trivial fun b _ s _ => ?_
      rw [childStep]
      simp only [inScope]
      rcases getNode_cases e.tree b with ⟨cd, h, hmem⟩ | ⟨q, h⟩
      · rw [h]
        simp only [Out.bind_ok]
        by_cases hr : cd.rule = .r_nucleus
        · rw [hr]
          simp only [pushUnary]
          cases ho : expr e n .nucleus s.2 b with
          | oof => trivial
          | panic q =>
            refine .panic ?_
            rs [callMeth_pub, call_get_node ord h, fieldVal_rule, pm_nucleus, hr, Does.panic h1 ho]
          | ok r =>
            refine .ok (v := unit) ?_ trivial
            rs [callMeth_pub, call_get_node ord h, fieldVal_rule, pm_nucleus, hr, Does.ok h1 ho, callMeth_out, push_optional ord]
            rfl
        rename _ => n1
        refine round_explicit ?_ ?_
        · revert n1; cases cd.rule <;> simp
        rs [callMeth_pub, call_get_node ord h, fieldVal_rule, pm_nucleus, n1, macroCall]
      · rw [h]
        refine .panic ?_
        rs [callMeth_pub, call_get_node_panic ord h]
    clear hR hO
    loop_end
  · rw [h]
    rs [Ast.GeneratedCode.optional, callMeth_pub, call_get_node_panic ord h]
    rfl

theorem does_one_or_more {M n : Nat} (h1 : Does ord e L M Ast.GeneratedCode.nucleus (expr e n .nucleus))
    (hM : 3 ≤ M) : Does ord e L (M + 1) Ast.GeneratedCode.one_or_more (expr e (n + 1) .oneOrMore) := by
  intro a i m hm
  rw [callN_succ rfl rfl (by omega), expr]
  rcases getNode_cases e.tree i with ⟨nd, h, hmem⟩ | ⟨q, h⟩
  · rw [h]
    simp only [Out.bind_ok]
    rw [childLoop_eq]
    rs [Ast.GeneratedCode.one_or_more, callMeth_pub, call_get_node ord h, callMeth_node, call_get_children, cast, items, Nat.zero_mod]
    generalize hR : forN _ _ _ = R
    generalize hO : (List.foldlM _ _ _ : Out _) = O
    have R : Loop R O (fun _ => True) fun s => [(n!"ret_key", encK s.1), (n!"node", encNode nd), (n!"hooked_call_imports_required", .vec (s.2.2.map .str)), (n!"left_recursive_rules", L),
        (n!"out_tree", encOut s.2.1), (n!"symbol_table", encSym e.src e.sym), (n!"tree", encTree e.tree), (n!"source", .str e.src), (n!"index", encKey i)] := by
      rw [← hR, ← hO]
      refine forN_loop rfl trivial fun b _ s _ => ?_
      rw [childStep]
      simp only [inScope]
      rcases getNode_cases e.tree b with ⟨cd, h, hmem⟩ | ⟨q, h⟩
      · rw [h]
        simp only [Out.bind_ok]
        by_cases hr : cd.rule = .r_nucleus
        · rw [hr]
          simp only [pushUnary]
          cases ho : expr e n .nucleus s.2 b with
          | oof => trivial
          | panic q =>
            refine .panic ?_
            rs [callMeth_pub, call_get_node ord h, fieldVal_rule, pm_nucleus, hr, Does.panic h1 ho]
          | ok r =>
            refine .ok (v := unit) ?_ trivial
            rs [callMeth_pub, call_get_node ord h, fieldVal_rule, pm_nucleus, hr, Does.ok h1 ho, callMeth_out, push_oneOrMore ord]
            rfl
        rename _ => n1
        refine round_explicit ?_ ?_
        · revert n1; cases cd.rule <;> simp
        rs [callMeth_pub, call_get_node ord h, fieldVal_rule, pm_nucleus, n1, macroCall]
      · rw [h]
        refine .panic ?_
        rs [callMeth_pub, call_get_node_panic ord h]
    clear hR hO
    loop_end
  · rw [h]
    rs [Ast.GeneratedCode.one_or_more, callMeth_pub, call_get_node_panic ord h]
    rfl

theorem does_zero_or_more {M n : Nat} (h1 : Does ord e L M Ast.GeneratedCode.nucleus (expr e n .nucleus))
    (hM : 3 ≤ M) : Does ord e L (M + 1) Ast.GeneratedCode.zero_or_more (expr e (n + 1) .zeroOrMore) := by
  intro a i m hm
  rw [callN_succ rfl rfl (by omega), expr]
  rcases getNode_cases e.tree i with ⟨nd, h, hmem⟩ | ⟨q, h⟩
  · rw [h]
    simp only [Out.bind_ok]
    rw [childLoop_eq]
    rs [Ast.GeneratedCode.zero_or_more, callMeth_pub, call_get_node ord h, callMeth_node, call_get_children, cast, items, Nat.zero_mod]
    generalize hR : forN _ _ _ = R
    generalize hO : (List.foldlM _ _ _ : Out _) = O
    have R : Loop R O (fun _ => True) fun s => [(n!"ret_key", encK s.1), (n!"node", encNode nd), (n!"hooked_call_imports_required", .vec (s.2.2.map .str)), (n!"left_recursive_rules", L),
        (n!"out_tree", encOut s.2.1), (n!"symbol_table", encSym e.src e.sym), (n!"tree", encTree e.tree), (n!"source", .str e.src), (n!"index", encKey i)] := by
      rw [← hR, ← hO]
      refine forN_loop rfl trivial fun b _ s _ => ?_
      rw [childStep]
      simp only [inScope]
      rcases getNode_cases e.tree b with ⟨cd, h, hmem⟩ | ⟨q, h⟩
      · rw [h]
        simp only [Out.bind_ok]
        by_cases hr : cd.rule = .r_nucleus
        · rw [hr]
          simp only [pushUnary]
          cases ho : expr e n .nucleus s.2 b with
          | oof => trivial
          | panic q =>
            refine .panic ?_
            rs [callMeth_pub, call_get_node ord h, fieldVal_rule, pm_nucleus, hr, Does.panic h1 ho]
          | ok r =>
            refine .ok (v := unit) ?_ trivial
            rs [callMeth_pub, call_get_node ord h, fieldVal_rule, pm_nucleus, hr, Does.ok h1 ho, callMeth_out, push_zeroOrMore ord]
            rfl
        rename _ => n1
        refine round_explicit ?_ ?_
        · revert n1; cases cd.rule <;> simp
        rs [callMeth_pub, call_get_node ord h, fieldVal_rule, pm_nucleus, n1, macroCall]
      · rw [h]
        refine .panic ?_
        rs [callMeth_pub, call_get_node_panic ord h]
    clear hR hO
    loop_end
  · rw [h]
    rs [Ast.GeneratedCode.zero_or_more, callMeth_pub, call_get_node_panic ord h]
    rfl

theorem does_and_predicate {M n : Nat} (h1 : Does ord e L M Ast.GeneratedCode.nucleus (expr e n .nucleus))
    (hM : 3 ≤ M) : Does ord e L (M + 1) Ast.GeneratedCode.and_predicate (expr e (n + 1) .andPredicate) := by
  intro a i m hm
  rw [callN_succ rfl rfl (by omega), expr]
  rcases getNode_cases e.tree i with ⟨nd, h, hmem⟩ | ⟨q, h⟩
  · rw [h]
    simp only [Out.bind_ok]
    rw [childLoop_eq]
    rs [Ast.GeneratedCode.and_predicate, callMeth_pub, call_get_node ord h, callMeth_node, call_get_children, cast, items, Nat.zero_mod]
    generalize hR : forN _ _ _ = R
    generalize hO : (List.foldlM _ _ _ : Out _) = O
    have R : Loop R O (fun _ => True) fun s => [(n!"ret_key", encK s.1), (n!"node", encNode nd), (n!"hooked_call_imports_required", .vec (s.2.2.map .str)), (n!"left_recursive_rules", L),
        (n!"out_tree", encOut s.2.1), (n!"symbol_table", encSym e.src e.sym), (n!"tree", encTree e.tree), (n!"source", .str e.src), (n!"index", encKey i)] := by
      rw [← hR, ← hO]
      refine forN_loop rfl trivial fun b _ s _ => ?_
      rw [childStep]
      simp only [inScope]
      rcases getNode_cases e.tree b with ⟨cd, h, hmem⟩ | ⟨q, h⟩
      · rw [h]
        simp only [Out.bind_ok]
        by_cases hr : cd.rule = .r_nucleus
        · rw [hr]
          simp only [pushUnary]
          cases ho : expr e n .nucleus s.2 b with
          | oof => trivial
          | panic q =>
            refine .panic ?_
            rs [callMeth_pub, call_get_node ord h, fieldVal_rule, pm_nucleus, hr, Does.panic h1 ho]
          | ok r =>
            refine .ok (v := unit) ?_ trivial
            rs [callMeth_pub, call_get_node ord h, fieldVal_rule, pm_nucleus, hr, Does.ok h1 ho, callMeth_out, push_and ord]
            rfl
        rename _ => n1
        refine round_explicit ?_ ?_
        · revert n1; cases cd.rule <;> simp
        rs [callMeth_pub, call_get_node ord h, fieldVal_rule, pm_nucleus, n1, macroCall]
      · rw [h]
        refine .panic ?_
        rs [callMeth_pub, call_get_node_panic ord h]
    clear hR hO
    loop_end
  · rw [h]
    rs [Ast.GeneratedCode.and_predicate, callMeth_pub, call_get_node_panic ord h]
    rfl

theorem does_not_predicate {M n : Nat} (h1 : Does ord e L M Ast.GeneratedCode.nucleus (expr e n .nucleus))
    (hM : 3 ≤ M) : Does ord e L (M + 1) Ast.GeneratedCode.not_predicate (expr e (n + 1) .notPredicate) := by
  intro a i m hm
  rw [callN_succ rfl rfl (by omega), expr]
  rcases getNode_cases e.tree i with ⟨nd, h, hmem⟩ | ⟨q, h⟩
  · rw [h]
    simp only [Out.bind_ok]
    rw [childLoop_eq]
    rs [Ast.GeneratedCode.not_predicate, callMeth_pub, call_get_node ord h, callMeth_node, call_get_children, cast, items, Nat.zero_mod]
    generalize hR : forN _ _ _ = R
    generalize hO : (List.foldlM _ _ _ : Out _) = O
    have R : Loop R O (fun _ => True) fun s => [(n!"ret_key", encK s.1), (n!"node", encNode nd), (n!"hooked_call_imports_required", .vec (s.2.2.map .str)), (n!"left_recursive_rules", L),
        (n!"out_tree", encOut s.2.1), (n!"symbol_table", encSym e.src e.sym), (n!"tree", encTree e.tree), (n!"source", .str e.src), (n!"index", encKey i)] := by
      rw [← hR, ← hO]
      refine forN_loop rfl trivial fun b _ s _ => ?_
      rw [childStep]
      simp only [inScope]
      rcases getNode_cases e.tree b with ⟨cd, h, hmem⟩ | ⟨q, h⟩
      · rw [h]
        simp only [Out.bind_ok]
        by_cases hr : cd.rule = .r_nucleus
        · rw [hr]
          simp only [pushUnary]
          cases ho : expr e n .nucleus s.2 b with
          | oof => trivial
          | panic q =>
            refine .panic ?_
            rs [callMeth_pub, call_get_node ord h, fieldVal_rule, pm_nucleus, hr, Does.panic h1 ho]
          | ok r =>
            refine .ok (v := unit) ?_ trivial
            rs [callMeth_pub, call_get_node ord h, fieldVal_rule, pm_nucleus, hr, Does.ok h1 ho, callMeth_out, push_not ord]
            rfl
        rename _ => n1
        refine round_explicit ?_ ?_
        · revert n1; cases cd.rule <;> simp
        rs [callMeth_pub, call_get_node ord h, fieldVal_rule, pm_nucleus, n1, macroCall]
      · rw [h]
        refine .panic ?_
        rs [callMeth_pub, call_get_node_panic ord h]
    clear hR hO
    loop_end
  · rw [h]
    rs [Ast.GeneratedCode.not_predicate, callMeth_pub, call_get_node_panic ord h]
    rfl

theorem does_subexpression {M n : Nat} (h1 : Does ord e L M Ast.GeneratedCode.rhs (expr e n .rhs))
    (hM : 3 ≤ M) : Does ord e L (M + 1) Ast.GeneratedCode.subexpression (expr e (n + 1) .subexpression) := by
  intro a i m hm
  rw [callN_succ rfl rfl (by omega), expr]
  rcases getNode_cases e.tree i with ⟨nd, h, hmem⟩ | ⟨q, h⟩
  · rw [h]
    simp only [Out.bind_ok]
    rw [childLoop_eq]
    rs [Ast.GeneratedCode.subexpression, callMeth_pub, call_get_node ord h, callMeth_node, call_get_children, cast, items, Nat.zero_mod]
    generalize hR : forN _ _ _ = R
    generalize hO : (List.foldlM _ _ _ : Out _) = O
    have R : Loop R O (fun _ => True) fun s => [(n!"ret_key", encK s.1), (n!"node", encNode nd), (n!"hooked_call_imports_required", .vec (s.2.2.map .str)), (n!"left_recursive_rules", L),
        (n!"out_tree", encOut s.2.1), (n!"symbol_table", encSym e.src e.sym), (n!"tree", encTree e.tree), (n!"source", .str e.src), (n!"index", encKey i)] := by
      rw [← hR, ← hO]
      refine forN_loop rfl trivial fun b _ s _ => ?_
      rw [childStep]
      simp only [inScope]
      rcases getNode_cases e.tree b with ⟨cd, h, hmem⟩ | ⟨q, h⟩
      · rw [h]
        simp only [Out.bind_ok]
        by_cases hr : cd.rule = .r_rhs
        · rw [hr]
          simp only [pushUnary]
          cases ho : expr e n .rhs s.2 b with
          | oof => trivial
          | panic q =>
            refine .panic ?_
            rs [callMeth_pub, call_get_node ord h, fieldVal_rule, pm_rhs, hr, Does.panic h1 ho]
          | ok r =>
            refine .ok (v := unit) ?_ trivial
            rs [callMeth_pub, call_get_node ord h, fieldVal_rule, pm_rhs, hr, Does.ok h1 ho, callMeth_out, push_sub ord]
            rfl
        rename _ => n1
        refine round_explicit ?_ ?_
        · revert n1; cases cd.rule <;> simp
        rs [callMeth_pub, call_get_node ord h, fieldVal_rule, pm_rhs, n1, macroCall]
      · rw [h]
        refine .panic ?_
        rs [callMeth_pub, call_get_node_panic ord h]
    clear hR hO
    loop_end
  · rw [h]
    rs [Ast.GeneratedCode.subexpression, callMeth_pub, call_get_node_panic ord h]
    rfl

theorem does_nucleus {M n : Nat} (hi : Input e) (hord : ∀ l, (ord l).Perm l) (hL : Sets L e.lr) (h1 : Does ord e L M Ast.GeneratedCode.subexpression (expr e n .subexpression)) (h2 : Does ord e L M Ast.GeneratedCode.hooked_call (expr e n .hookedCall))
    (hM : 4 ≤ M) : Does ord e L (M + 1) Ast.GeneratedCode.nucleus (expr e (n + 1) .nucleus) := by
  intro a i m hm
  rw [callN_succ rfl rfl (by omega), expr]
  rcases getNode_cases e.tree i with ⟨nd, h, hmem⟩ | ⟨q, h⟩
  · rw [h]
    simp only [Out.bind_ok]
    rw [childLoop_eq]
    rs [Ast.GeneratedCode.nucleus, callMeth_pub, call_get_node ord h, callMeth_node, call_get_children, cast, items, Nat.zero_mod]
    generalize hR : forN _ _ _ = R
    generalize hO : (List.foldlM _ _ _ : Out _) = O
    have R : Loop R O (fun _ => True) fun s => [(n!"ret_key", encK s.1), (n!"node", encNode nd), (n!"hooked_call_imports_required", .vec (s.2.2.map .str)), (n!"left_recursive_rules", L),
        (n!"out_tree", encOut s.2.1), (n!"symbol_table", encSym e.src e.sym), (n!"tree", encTree e.tree), (n!"source", .str e.src), (n!"index", encKey i)] := by
      rw [← hR, ← hO]
      refine forN_loop rfl trivial fun b _ s _ => ?_
      rw [childStep]
      simp only [inScope]
      rcases getNode_cases e.tree b with ⟨cd, h, hmem⟩ | ⟨q, h⟩
      · rw [h]
        simp only [Out.bind_ok]
        by_cases hr : cd.rule = .r_subexpression
        · rw [hr]
          simp only
          cases ho : expr e n .subexpression s.2 b with
          | oof => trivial
          | panic q =>
            refine .panic ?_
            rs [callMeth_pub, call_get_node ord h, fieldVal_rule, pm_subexpression, hr, Does.panic h1 ho]
          | ok r =>
            refine .ok (v := unit) ?_ trivial
            rs [callMeth_pub, call_get_node ord h, fieldVal_rule, pm_subexpression, hr, Does.ok h1 ho]
        rename _ => n1
        by_cases hr : cd.rule = .r_terminal
        · rw [hr]
          simp only
          cases ho : terminal e s.2 b with
          | oof => trivial
          | panic q =>
            have hc := fun {m : Nat} (hm : 3 ≤ m) => CRes.Sim.of_panic (call_term ord (encSym e.src e.sym) hi s.2 b hm) ho
            refine .panic ?_
            rs [callMeth_pub, call_get_node ord h, fieldVal_rule, pm_subexpression, pm_terminal, hr, hc]
          | ok r =>
            have hc := fun {m : Nat} (hm : 3 ≤ m) => CRes.Sim.of_ok (call_term ord (encSym e.src e.sym) hi s.2 b hm) ho
            have hh := terminal_hooks ho
            refine .ok (v := unit) ?_ trivial
            rs [callMeth_pub, call_get_node ord h, fieldVal_rule, pm_subexpression, pm_terminal, hr, hc, hh]
        rename _ => n2
        by_cases hr : cd.rule = .r_var_name_ref
        · rw [hr]
          simp only
          cases ho : varName e s.2 b with
          | oof => trivial
          | panic q =>
            have hc := fun {m : Nat} (hm : 4 ≤ m) => CRes.Sim.of_panic (call_var ord L hi hord hL s.2 b hm) ho
            refine .panic ?_
            rs [callMeth_pub, call_get_node ord h, fieldVal_rule, pm_subexpression, pm_terminal, pm_var_name_ref, hr, hc]
          | ok r =>
            have hc := fun {m : Nat} (hm : 4 ≤ m) => CRes.Sim.of_ok (call_var ord L hi hord hL s.2 b hm) ho
            have hh := varName_hooks ho
            refine .ok (v := unit) ?_ trivial
            rs [callMeth_pub, call_get_node ord h, fieldVal_rule, pm_subexpression, pm_terminal, pm_var_name_ref, hr, hc, hh]
        rename _ => n3
        by_cases hr : cd.rule = .r_orderedchoicematchrange
        · rw [hr]
          simp only
          cases ho : orderedChoiceMatchRange e s.2 b with
          | oof => trivial
          | panic q =>
            have hc := fun {m : Nat} (hm : 3 ≤ m) => CRes.Sim.of_panic (call_range ord (encSym e.src e.sym) hi s.2 b hm) ho
            refine .panic ?_
            rs [callMeth_pub, call_get_node ord h, fieldVal_rule, pm_subexpression, pm_terminal, pm_var_name_ref, pm_orderedchoicematchrange, hr, hc]
          | ok r =>
            have hc := fun {m : Nat} (hm : 3 ≤ m) => CRes.Sim.of_ok (call_range ord (encSym e.src e.sym) hi s.2 b hm) ho
            have hh := range_hooks ho
            refine .ok (v := unit) ?_ trivial
            rs [callMeth_pub, call_get_node ord h, fieldVal_rule, pm_subexpression, pm_terminal, pm_var_name_ref, pm_orderedchoicematchrange, hr, hc, hh]
        rename _ => n4
        by_cases hr : cd.rule = .r_stringterminal
        · rw [hr]
          simp only
          cases ho : stringTerminal e s.2 b with
          | oof => trivial
          | panic q =>
            have hc := fun {m : Nat} (hm : 3 ≤ m) => CRes.Sim.of_panic (call_string ord (encSym e.src e.sym) hi s.2 b hm) ho
            refine .panic ?_
            rs [callMeth_pub, call_get_node ord h, fieldVal_rule, pm_subexpression, pm_terminal, pm_var_name_ref, pm_orderedchoicematchrange, pm_stringterminal, hr, hc]
          | ok r =>
            have hc := fun {m : Nat} (hm : 3 ≤ m) => CRes.Sim.of_ok (call_string ord (encSym e.src e.sym) hi s.2 b hm) ho
            have hh := string_hooks ho
            refine .ok (v := unit) ?_ trivial
            rs [callMeth_pub, call_get_node ord h, fieldVal_rule, pm_subexpression, pm_terminal, pm_var_name_ref, pm_orderedchoicematchrange, pm_stringterminal, hr, hc, hh]
        rename _ => n5
        by_cases hr : cd.rule = .r_hooked_call
        · rw [hr]
          simp only
          cases ho : expr e n .hookedCall s.2 b with
          | oof => trivial
          | panic q =>
            refine .panic ?_
            rs [callMeth_pub, call_get_node ord h, fieldVal_rule, pm_subexpression, pm_terminal, pm_var_name_ref, pm_orderedchoicematchrange, pm_stringterminal, pm_hooked_call, hr, Does.panic h2 ho]
          | ok r =>
            refine .ok (v := unit) ?_ trivial
            rs [callMeth_pub, call_get_node ord h, fieldVal_rule, pm_subexpression, pm_terminal, pm_var_name_ref, pm_orderedchoicematchrange, pm_stringterminal, pm_hooked_call, hr, Does.ok h2 ho]
        rename _ => n6
        refine round_explicit ?_ ?_
        · revert n1 n2 n3 n4 n5 n6; cases cd.rule <;> simp
        obtain ⟨w, hw⟩ := dbg_rule cd.rule
        rs [callMeth_pub, call_get_node ord h, fieldVal_rule, pm_subexpression, pm_terminal, pm_var_name_ref, pm_orderedchoicematchrange, pm_stringterminal, pm_hooked_call, n1, n2, n3, n4, n5, n6, render, hw, macroCall]
      · rw [h]
        refine .panic ?_
        rs [callMeth_pub, call_get_node_panic ord h]
    clear hR hO
    loop_end
  · rw [h]
    rs [Ast.GeneratedCode.nucleus, callMeth_pub, call_get_node_panic ord h]
    rfl

theorem add_count {c : Nat} (h : c + 1 < 4294967296) : binop .add (.num false c) (.num false 1) = .ok (.num false (c + 1)) .none := by
  simp only [binop, Bool.or_self]
  rw [if_pos (by simp [numLimit]; omega)]

theorem does_ordered_choice {M n B : Nat} (hf : TreeFits e.tree B) (h1 : Does ord e L M Ast.GeneratedCode.atom (expr e n .atom)) (hM : 3 ≤ M) :
    Does ord e L (M + 1) Ast.GeneratedCode.ordered_choice (expr e (n + 1) .orderedChoice) := by
  intro a i m hm
  rw [callN_succ rfl rfl (by omega), expr]
  rcases getNode_cases e.tree i with ⟨nd, h, hmem⟩ | ⟨q, h⟩
  · rw [h]
    simp only [Out.bind_ok]
    have hw := hf.width nd hmem
    have hB := hf.bound
    rw [chainLoop_eq _ _ _ (none, a)]
    rs [Ast.GeneratedCode.ordered_choice, callMeth_pub, call_get_node ord h, callMeth_node, call_get_children, cast, items, Nat.zero_mod]
    generalize hR : forN _ _ _ = R
    generalize hO : (List.foldlM _ _ _ : Out _) = O
    have R : Loop R O (fun s => nd.children.length ≠ 0 ↔ s.1.isSome = true) fun s => [(n!"last_key", encK (s.1.getD 0)), (n!"count", .num false nd.children.length), (n!"oc_node", encNode nd),
        (n!"hooked_call_imports_required", .vec (s.2.2.map .str)), (n!"left_recursive_rules", L),
        (n!"out_tree", encOut s.2.1), (n!"symbol_table", encSym e.src e.sym), (n!"tree", encTree e.tree), (n!"source", .str e.src), (n!"index", encKey i)] := by
      rw [← hR, ← hO]
      refine forN_count (E := fun c (s : Option Nat × Acc) => [(n!"last_key", encK (s.1.getD 0)), (n!"count", .num false c), (n!"oc_node", encNode nd),
        (n!"hooked_call_imports_required", .vec (s.2.2.map .str)), (n!"left_recursive_rules", L),
        (n!"out_tree", encOut s.2.1), (n!"symbol_table", encSym e.src e.sym), (n!"tree", encTree e.tree), (n!"source", .str e.src), (n!"index", encKey i)])
        (P := fun c (s : Option Nat × Acc) => c ≠ 0 ↔ s.1.isSome = true) rfl (by simp) fun c b hc _ s hP => ?_
      rw [chainStep]
      simp only [inScope]
      rcases getNode_cases e.tree b with ⟨cd, h, hmem⟩ | ⟨q, h⟩
      · rw [h]
        simp only [Out.bind_ok]
        by_cases hr : cd.rule = .r_atom
        · rw [if_neg (by simp [hr])]
          cases ho : expr e n .atom s.2 b with
          | oof => trivial
          | panic q =>
            refine .panic ?_
            rs [callMeth_pub, call_get_node ord h, fieldVal_rule, pm_atom, hr, Does.panic h1 ho]
          | ok r =>
            obtain ⟨l, acc⟩ := s
            simp only [Out.bind_ok]
            cases l with
            | none =>
              have hc0 : decide (c ≠ 0) = false := by simpa using hP
              refine .ok (v := unit) ?_ (by simp)
              rs [callMeth_pub, call_get_node ord h, fieldVal_rule, pm_atom, hr, Does.ok h1 ho, ne_num, hc0, addTo, add_count (show c + 1 < 4294967296 by omega)]
              rfl
            | some l =>
              have hc0 : decide (c ≠ 0) = true := by simpa using hP
              refine .ok (v := unit) ?_ (by simp)
              rs [callMeth_pub, call_get_node ord h, fieldVal_rule, pm_atom, hr, Does.ok h1 ho, ne_num, hc0, addTo, add_count (show c + 1 < 4294967296 by omega), Option.getD_some, callMeth_out, push_choice ord]
              rfl
        · rw [if_pos hr]
          refine .panic ?_
          rs [callMeth_pub, call_get_node ord h, fieldVal_rule, pm_atom, hr, macroCall]
      · rw [h]
        refine .panic ?_
        rs [callMeth_pub, call_get_node_panic ord h]
    clear hR hO
    loop_end
  · rw [h]
    rs [Ast.GeneratedCode.ordered_choice, callMeth_pub, call_get_node_panic ord h]
    rfl

theorem does_sequence {M n B : Nat} (hf : TreeFits e.tree B) (h1 : Does ord e L M Ast.GeneratedCode.atom (expr e n .atom)) (hM : 3 ≤ M) :
    Does ord e L (M + 1) Ast.GeneratedCode.sequence (expr e (n + 1) .sequence) := by
  intro a i m hm
  rw [callN_succ rfl rfl (by omega), expr]
  rcases getNode_cases e.tree i with ⟨nd, h, hmem⟩ | ⟨q, h⟩
  · rw [h]
    simp only [Out.bind_ok]
    have hw := hf.width nd hmem
    have hB := hf.bound
    rw [chainLoop_eq _ _ _ (none, a)]
    rs [Ast.GeneratedCode.sequence, callMeth_pub, call_get_node ord h, callMeth_node, call_get_children, cast, items, Nat.zero_mod]
    generalize hR : forN _ _ _ = R
    generalize hO : (List.foldlM _ _ _ : Out _) = O
    have R : Loop R O (fun s => nd.children.length ≠ 0 ↔ s.1.isSome = true) fun s => [(n!"last_key", encK (s.1.getD 0)), (n!"count", .num false nd.children.length), (n!"oc_node", encNode nd),
        (n!"hooked_call_imports_required", .vec (s.2.2.map .str)), (n!"left_recursive_rules", L),
        (n!"out_tree", encOut s.2.1), (n!"symbol_table", encSym e.src e.sym), (n!"tree", encTree e.tree), (n!"source", .str e.src), (n!"index", encKey i)] := by
      rw [← hR, ← hO]
      refine forN_count (E := fun c (s : Option Nat × Acc) => [(n!"last_key", encK (s.1.getD 0)), (n!"count", .num false c), (n!"oc_node", encNode nd),
        (n!"hooked_call_imports_required", .vec (s.2.2.map .str)), (n!"left_recursive_rules", L),
        (n!"out_tree", encOut s.2.1), (n!"symbol_table", encSym e.src e.sym), (n!"tree", encTree e.tree), (n!"source", .str e.src), (n!"index", encKey i)])
        (P := fun c (s : Option Nat × Acc) => c ≠ 0 ↔ s.1.isSome = true) rfl (by simp) fun c b hc _ s hP => ?_
      rw [chainStep]
      simp only [inScope]
      rcases getNode_cases e.tree b with ⟨cd, h, hmem⟩ | ⟨q, h⟩
      · rw [h]
        simp only [Out.bind_ok]
        by_cases hr : cd.rule = .r_atom
        · rw [if_neg (by simp [hr])]
          cases ho : expr e n .atom s.2 b with
          | oof => trivial
          | panic q =>
            refine .panic ?_
            rs [callMeth_pub, call_get_node ord h, fieldVal_rule, pm_atom, hr, Does.panic h1 ho]
          | ok r =>
            obtain ⟨l, acc⟩ := s
            simp only [Out.bind_ok]
            cases l with
            | none =>
              have hc0 : decide (c ≠ 0) = false := by simpa using hP
              refine .ok (v := unit) ?_ (by simp)
              rs [callMeth_pub, call_get_node ord h, fieldVal_rule, pm_atom, hr, Does.ok h1 ho, ne_num, hc0, addTo, add_count (show c + 1 < 4294967296 by omega)]
              rfl
            | some l =>
              have hc0 : decide (c ≠ 0) = true := by simpa using hP
              refine .ok (v := unit) ?_ (by simp)
              rs [callMeth_pub, call_get_node ord h, fieldVal_rule, pm_atom, hr, Does.ok h1 ho, ne_num, hc0, addTo, add_count (show c + 1 < 4294967296 by omega), Option.getD_some, callMeth_out, push_seq ord]
              rfl
        · rw [if_pos hr]
          refine .panic ?_
          rs [callMeth_pub, call_get_node ord h, fieldVal_rule, pm_atom, hr, macroCall]
      · rw [h]
        refine .panic ?_
        rs [callMeth_pub, call_get_node_panic ord h]
    clear hR hO
    loop_end
  · rw [h]
    rs [Ast.GeneratedCode.sequence, callMeth_pub, call_get_node_panic ord h]
    rfl

theorem does_hooked_call {M n : Nat} (hi : Input e) (h1 : Does ord e L M Ast.GeneratedCode.subexpression (expr e n .subexpression)) (hM : 3 ≤ M) :
    Does ord e L (M + 1) Ast.GeneratedCode.hooked_call (expr e (n + 1) .hookedCall) := by
  intro a i m hm
  rw [callN_succ rfl rfl (by omega), expr]
  rcases getNode_cases e.tree i with ⟨nd, h, hmem⟩ | ⟨q, h⟩
  · rw [h]
    simp only [Out.bind_ok]
    cases hk : nd.children[0]? with
    | none =>
      simp only [Out.ofOption]
      rs [Ast.GeneratedCode.hooked_call, callMeth_pub, call_get_node ord h, callMeth_node, call_get_children, index_children_none hk]
      rfl
    | some c =>
      simp only [Out.ofOption, Out.bind_ok]
      rcases getNode_cases e.tree c with ⟨cd, h', hmem'⟩ | ⟨q, h'⟩
      · rw [h']
        simp only [Out.bind_ok]
        by_cases h0 : cd.start = 0
        · rw [if_pos h0]
          rs [Ast.GeneratedCode.hooked_call, callMeth_pub, call_get_node ord h, callMeth_node, call_get_children, index_children hk, call_get_node ord h', fieldVal_start, cast_usize, sub_zero_panic h0]
          rfl
        · rw [if_neg h0]
          have hsl := slice_ascii hi.ascii nd.start (cd.start - 1) false false
          cases ho : Source.strSlice e.src nd.start (cd.start - 1) with
          | oof => trivial
          | panic q =>
            rw [ho] at hsl
            simp only at hsl
            rs [Ast.GeneratedCode.hooked_call, callMeth_pub, call_get_node ord h, callMeth_node, call_get_children, index_children hk, call_get_node ord h', fieldVal_start, cast_usize, sub_one h0, hsl]
            rfl
          | ok name =>
            rw [ho] at hsl
            simp only at hsl
            simp only [Out.bind_ok]
            have hpush : (a.2.map Val.str) ++ [Val.str name] = (a.2 ++ [name]).map Val.str := by simp
            cases hx : expr e n .subexpression (a.1, a.2 ++ [name]) i with
            | oof => trivial
            | panic q =>
              have hp := fun {m : Nat} (hm : M ≤ m) => Does.panic h1 hx hm
              simp only at hp
              rs [Ast.GeneratedCode.hooked_call, callMeth_pub, call_get_node ord h, callMeth_node, call_get_children, index_children hk, call_get_node ord h', fieldVal_start, cast_usize, sub_one h0, hsl,
                to_string_lib, push_lib, hpush, hp]
              rfl
            | ok r =>
              have hp := fun {m : Nat} (hm : M ≤ m) => Does.ok h1 hx hm
              simp only at hp
              rs [Ast.GeneratedCode.hooked_call, callMeth_pub, call_get_node ord h, callMeth_node, call_get_children, index_children hk, call_get_node ord h', fieldVal_start, cast_usize, sub_one h0, hsl,
                to_string_lib, push_lib, hpush, hp, callMeth_out, push_hook ord]
              rfl
      · rw [h']
        rs [Ast.GeneratedCode.hooked_call, callMeth_pub, call_get_node ord h, callMeth_node, call_get_children, index_children hk, call_get_node_panic ord h']
        rfl
  · rw [h]
    rs [Ast.GeneratedCode.hooked_call, callMeth_pub, call_get_node_panic ord h]
    rfl

/-- The function of the text that a function of the model stands for -/
def exprFn : Gen.Fn → Rs.Fn
  | .rhs => Ast.GeneratedCode.rhs
  | .orderedChoice => Ast.GeneratedCode.ordered_choice
  | .sequence => Ast.GeneratedCode.sequence
  | .atom => Ast.GeneratedCode.atom
  | .optional => Ast.GeneratedCode.optional
  | .oneOrMore => Ast.GeneratedCode.one_or_more
  | .zeroOrMore => Ast.GeneratedCode.zero_or_more
  | .andPredicate => Ast.GeneratedCode.and_predicate
  | .notPredicate => Ast.GeneratedCode.not_predicate
  | .nucleus => Ast.GeneratedCode.nucleus
  | .subexpression => Ast.GeneratedCode.subexpression
  | .hookedCall => Ast.GeneratedCode.hooked_call

theorem call_expr {B : Nat} (hi : Input e) (hf : TreeFits e.tree B) (hord : ∀ l, (ord l).Perm l) (hL : Sets L e.lr) (n : Nat) :
    ∀ f, Does ord e L (n + 4) (exprFn f) (expr e n f) := by
  induction n with
  | zero => intro f a i m _; trivial
  | succ n ih =>
    have hM : 3 ≤ n + 4 := by omega
    intro f
    have hn : n + 1 + 4 = n + 4 + 1 := by omega
    rw [hn]
    cases f with
    | rhs => exact does_rhs ord L (ih .orderedChoice) (ih .sequence) (ih .atom) hM
    | orderedChoice => exact does_ordered_choice ord L hf (ih .atom) hM
    | sequence => exact does_sequence ord L hf (ih .atom) hM
    | atom => exact does_atom ord L (ih .andPredicate) (ih .notPredicate) (ih .oneOrMore) (ih .zeroOrMore) (ih .optional) (ih .nucleus) hM
    | optional => exact does_optional ord L (ih .nucleus) hM
    | oneOrMore => exact does_one_or_more ord L (ih .nucleus) hM
    | zeroOrMore => exact does_zero_or_more ord L (ih .nucleus) hM
    | andPredicate => exact does_and_predicate ord L (ih .nucleus) hM
    | notPredicate => exact does_not_predicate ord L (ih .nucleus) hM
    | nucleus => exact does_nucleus ord L hi hord hL (ih .subexpression) (ih .hookedCall) (by omega)
    | subexpression => exact does_subexpression ord L (ih .rhs) hM
    | hookedCall => exact does_hooked_call ord L hi (ih .subexpression) hM

end PP.Rs
