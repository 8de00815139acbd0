import Verif.Lemmas.Rs.Symbols
import Verif.Lemmas.Gen.Comp
import Verif.Spec.Rs.Given

/-! # generator/src/constructor.rs, executed: the functions without recursion -/
namespace PP.Rs
open PP.Gen
variable (ord : List Val → List Val)

/-! ## The tree under construction: keys are `u32` -/


theorem encOut_def (t : BTree) : encOut t = .struct n!"BinaryTreeWO" [(n!"nodes", .vec ((t.map wrapNode).map encBNode))] := rfl
theorem callMeth_out (W C e t m es vs env) : callMeth W C e (encOut t) m es vs env =
    (match W.fn? (.some n!"BinaryTreeWO") m with | .some f => .ofCall f.muts (.cons e es) env (C.fn f (encOut t :: vs)) | .none => .stuck) := rfl

theorem call_push (t : BTree) (r : Reference) (l l' : Option Nat) {m : Nat} (hm : 1 ≤ m) :
    callN (World.gen ord) m Ast.BinaryTreeWO.push [encOut t, encRef r, encOpt (l.map (· % 4294967296)), encOpt (l'.map (· % 4294967296))] =
      .ok (encK t.length) [encOut (t.push r l l').2, encRef r, encOpt (l.map (· % 4294967296)), encOpt (l'.map (· % 4294967296))] := by
  rw [callN_succ rfl rfl (by omega)]
  rs [Ast.BinaryTreeWO.push, encOut_def, vecLib, List.length_map, cast, key_fold]
  simp [BTree.push, wrapNode, encBNode, encK, encKey]

theorem push_00 (t : BTree) {r : Reference} {v : Val} (h : v = encRef r) {m : Nat} (hm : 1 ≤ m) :
    callN (World.gen ord) m Ast.BinaryTreeWO.push [encOut t, v, .none, .none] = .ok (encK t.length) [encOut (t ++ [⟨r, none, none⟩]), v, .none, .none] := by
  subst h; exact call_push ord t r none none hm
theorem push_10 (t : BTree) {r : Reference} {v : Val} (h : v = encRef r) (k : Nat) {m : Nat} (hm : 1 ≤ m) :
    callN (World.gen ord) m Ast.BinaryTreeWO.push [encOut t, v, .some (encK k), .none] = .ok (encK t.length) [encOut (t ++ [⟨r, some k, none⟩]), v, .some (encK k), .none] := by
  subst h; exact call_push ord t r (some k) none hm
theorem push_11 (t : BTree) {r : Reference} {v : Val} (h : v = encRef r) (k l : Nat) {m : Nat} (hm : 1 ≤ m) :
    callN (World.gen ord) m Ast.BinaryTreeWO.push [encOut t, v, .some (encK k), .some (encK l)] =
      .ok (encK t.length) [encOut (t ++ [⟨r, some k, some l⟩]), v, .some (encK k), .some (encK l)] := by
  subst h; exact call_push ord t r (some k) (some l) hm

section
variable (t : BTree) (c : Bytes) (k l : Nat) {m : Nat} (hm : 1 ≤ m)
include hm
theorem push_terminal : callN (World.gen ord) m Ast.BinaryTreeWO.push [encOut t, .data n!"Reference" n!"Terminal" [.str c], .none, .none] =
    .ok (encK t.length) [encOut (t ++ [⟨.terminal c, none, none⟩]), .data n!"Reference" n!"Terminal" [.str c], .none, .none] := push_00 ord t (r := .terminal c) rfl hm
theorem push_varName : callN (World.gen ord) m Ast.BinaryTreeWO.push [encOut t, .data n!"Reference" n!"VarName" [.str c], .none, .none] =
    .ok (encK t.length) [encOut (t ++ [⟨.varName c, none, none⟩]), .data n!"Reference" n!"VarName" [.str c], .none, .none] := push_00 ord t (r := .varName c) rfl hm
theorem push_inlined : callN (World.gen ord) m Ast.BinaryTreeWO.push [encOut t, .data n!"Reference" n!"InlinedRule" [.str c], .none, .none] =
    .ok (encK t.length) [encOut (t ++ [⟨.inlinedRule c, none, none⟩]), .data n!"Reference" n!"InlinedRule" [.str c], .none, .none] := push_00 ord t (r := .inlinedRule c) rfl hm
omit hm in
theorem push_lr (vs : List Bytes) {m : Nat} (hm : 1 ≤ m) : callN (World.gen ord) m Ast.BinaryTreeWO.push [encOut t, .data n!"Reference" n!"LeftRecursiveRule" [.str c, .vec (vs.map .str)], .none, .none] =
    .ok (encK t.length) [encOut (t ++ [⟨.leftRecursiveRule c vs, none, none⟩]), .data n!"Reference" n!"LeftRecursiveRule" [.str c, .vec (vs.map .str)], .none, .none] := push_00 ord t (r := .leftRecursiveRule c vs) rfl hm
theorem push_range : callN (World.gen ord) m Ast.BinaryTreeWO.push [encOut t, .data n!"Reference" n!"OrderedChoiceMatchRange" [.num true k, .num true l], .none, .none] =
    .ok (encK t.length) [encOut (t ++ [⟨.matchRange k l, none, none⟩]), .data n!"Reference" n!"OrderedChoiceMatchRange" [.num true k, .num true l], .none, .none] := push_00 ord t (r := .matchRange k l) rfl hm
omit hm in
theorem push_string (cs : List Nat) {m : Nat} (hm : 1 ≤ m) : callN (World.gen ord) m Ast.BinaryTreeWO.push [encOut t, .data n!"Reference" n!"StringTerminal" [.vec (cs.map .char)], .none, .none] =
    .ok (encK t.length) [encOut (t ++ [⟨.stringTerminal cs, none, none⟩]), .data n!"Reference" n!"StringTerminal" [.vec (cs.map .char)], .none, .none] := push_00 ord t (r := .stringTerminal cs) rfl hm
omit hm in
theorem push_stringAscii (cs : List Nat) {m : Nat} (hm : 1 ≤ m) : callN (World.gen ord) m Ast.BinaryTreeWO.push [encOut t, .data n!"Reference" n!"StringTerminalAsciiOpt" [.vec (cs.map .char)], .none, .none] =
    .ok (encK t.length) [encOut (t ++ [⟨.stringTerminalAsciiOpt cs, none, none⟩]), .data n!"Reference" n!"StringTerminalAsciiOpt" [.vec (cs.map .char)], .none, .none] := push_00 ord t (r := .stringTerminalAsciiOpt cs) rfl hm
theorem push_oneOrMore : callN (World.gen ord) m Ast.BinaryTreeWO.push [encOut t, .data n!"Reference" n!"OneOrMore" [], .some (encK k), .none] =
    .ok (encK t.length) [encOut (t ++ [⟨.oneOrMore, some k, none⟩]), .data n!"Reference" n!"OneOrMore" [], .some (encK k), .none] := push_10 ord t (r := .oneOrMore) rfl k hm
theorem push_zeroOrMore : callN (World.gen ord) m Ast.BinaryTreeWO.push [encOut t, .data n!"Reference" n!"ZeroOrMore" [], .some (encK k), .none] =
    .ok (encK t.length) [encOut (t ++ [⟨.zeroOrMore, some k, none⟩]), .data n!"Reference" n!"ZeroOrMore" [], .some (encK k), .none] := push_10 ord t (r := .zeroOrMore) rfl k hm
theorem push_optional : callN (World.gen ord) m Ast.BinaryTreeWO.push [encOut t, .data n!"Reference" n!"Optional" [], .some (encK k), .none] =
    .ok (encK t.length) [encOut (t ++ [⟨.optional, some k, none⟩]), .data n!"Reference" n!"Optional" [], .some (encK k), .none] := push_10 ord t (r := .optional) rfl k hm
theorem push_and : callN (World.gen ord) m Ast.BinaryTreeWO.push [encOut t, .data n!"Reference" n!"AndPredicate" [], .some (encK k), .none] =
    .ok (encK t.length) [encOut (t ++ [⟨.andPredicate, some k, none⟩]), .data n!"Reference" n!"AndPredicate" [], .some (encK k), .none] := push_10 ord t (r := .andPredicate) rfl k hm
theorem push_not : callN (World.gen ord) m Ast.BinaryTreeWO.push [encOut t, .data n!"Reference" n!"NotPredicate" [], .some (encK k), .none] =
    .ok (encK t.length) [encOut (t ++ [⟨.notPredicate, some k, none⟩]), .data n!"Reference" n!"NotPredicate" [], .some (encK k), .none] := push_10 ord t (r := .notPredicate) rfl k hm
theorem push_sub : callN (World.gen ord) m Ast.BinaryTreeWO.push [encOut t, .data n!"Reference" n!"Subexpression" [], .some (encK k), .none] =
    .ok (encK t.length) [encOut (t ++ [⟨.subexpression, some k, none⟩]), .data n!"Reference" n!"Subexpression" [], .some (encK k), .none] := push_10 ord t (r := .subexpression) rfl k hm
theorem push_exec : callN (World.gen ord) m Ast.BinaryTreeWO.push [encOut t, .data n!"Reference" n!"Exec" [], .some (encK k), .none] =
    .ok (encK t.length) [encOut (t ++ [⟨.exec, some k, none⟩]), .data n!"Reference" n!"Exec" [], .some (encK k), .none] := push_10 ord t (r := .exec) rfl k hm
theorem push_hook : callN (World.gen ord) m Ast.BinaryTreeWO.push [encOut t, .data n!"Reference" n!"HookedCall" [.str c], .some (encK k), .none] =
    .ok (encK t.length) [encOut (t ++ [⟨.hookedCall c, some k, none⟩]), .data n!"Reference" n!"HookedCall" [.str c], .some (encK k), .none] := push_10 ord t (r := .hookedCall c) rfl k hm
theorem push_choice : callN (World.gen ord) m Ast.BinaryTreeWO.push [encOut t, .data n!"Reference" n!"OrderedChoice" [], .some (encK k), .some (encK l)] =
    .ok (encK t.length) [encOut (t ++ [⟨.orderedChoice, some k, some l⟩]), .data n!"Reference" n!"OrderedChoice" [], .some (encK k), .some (encK l)] := push_11 ord t (r := .orderedChoice) rfl k l hm
theorem push_seq : callN (World.gen ord) m Ast.BinaryTreeWO.push [encOut t, .data n!"Reference" n!"Sequence" [], .some (encK k), .some (encK l)] =
    .ok (encK t.length) [encOut (t ++ [⟨.sequence, some k, some l⟩]), .data n!"Reference" n!"Sequence" [], .some (encK k), .some (encK l)] := push_11 ord t (r := .sequence) rfl k l hm
end

/-! ## Rules as patterns -/

section
variable (r : Dsl)
theorem pm_terminal : pmatch (.variants [(n!"Rules", n!"Terminal")]) (encRule r) = if r = .r_terminal then .some [] else .none := by cases r <;> rfl
theorem pm_integer : pmatch (.variants [(n!"Rules", n!"Integer")]) (encRule r) = if r = .r_integer then .some [] else .none := by cases r <;> rfl
theorem pm_hex : pmatch (.variants [(n!"Rules", n!"Hex")]) (encRule r) = if r = .r_hex then .some [] else .none := by cases r <;> rfl
theorem pm_ascii : pmatch (.variants [(n!"Rules", n!"ASCII")]) (encRule r) = if r = .r_ascii then .some [] else .none := by cases r <;> rfl
theorem pm_ordered_choice : pmatch (.variants [(n!"Rules", n!"Ordered_Choice")]) (encRule r) = if r = .r_ordered_choice then .some [] else .none := by cases r <;> rfl
theorem pm_sequence : pmatch (.variants [(n!"Rules", n!"Sequence")]) (encRule r) = if r = .r_sequence then .some [] else .none := by cases r <;> rfl
theorem pm_atom : pmatch (.variants [(n!"Rules", n!"Atom")]) (encRule r) = if r = .r_atom then .some [] else .none := by cases r <;> rfl
theorem pm_and_predicate : pmatch (.variants [(n!"Rules", n!"And_Predicate")]) (encRule r) = if r = .r_and_predicate then .some [] else .none := by cases r <;> rfl
theorem pm_not_predicate : pmatch (.variants [(n!"Rules", n!"Not_Predicate")]) (encRule r) = if r = .r_not_predicate then .some [] else .none := by cases r <;> rfl
theorem pm_one_or_more : pmatch (.variants [(n!"Rules", n!"One_Or_More")]) (encRule r) = if r = .r_one_or_more then .some [] else .none := by cases r <;> rfl
theorem pm_zero_or_more : pmatch (.variants [(n!"Rules", n!"Zero_Or_More")]) (encRule r) = if r = .r_zero_or_more then .some [] else .none := by cases r <;> rfl
theorem pm_optional : pmatch (.variants [(n!"Rules", n!"Optional")]) (encRule r) = if r = .r_optional then .some [] else .none := by cases r <;> rfl
theorem pm_nucleus : pmatch (.variants [(n!"Rules", n!"Nucleus")]) (encRule r) = if r = .r_nucleus then .some [] else .none := by cases r <;> rfl
theorem pm_subexpression : pmatch (.variants [(n!"Rules", n!"Subexpression")]) (encRule r) = if r = .r_subexpression then .some [] else .none := by cases r <;> rfl
theorem pm_var_name_ref : pmatch (.variants [(n!"Rules", n!"Var_Name_Ref")]) (encRule r) = if r = .r_var_name_ref then .some [] else .none := by cases r <;> rfl
theorem pm_orderedchoicematchrange : pmatch (.variants [(n!"Rules", n!"OrderedChoiceMatchRange")]) (encRule r) = if r = .r_orderedchoicematchrange then .some [] else .none := by cases r <;> rfl
theorem pm_stringterminal : pmatch (.variants [(n!"Rules", n!"StringTerminal")]) (encRule r) = if r = .r_stringterminal then .some [] else .none := by cases r <;> rfl
theorem pm_hooked_call : pmatch (.variants [(n!"Rules", n!"Hooked_Call")]) (encRule r) = if r = .r_hooked_call then .some [] else .none := by cases r <;> rfl
theorem pm_rhs : pmatch (.variants [(n!"Rules", n!"RHS")]) (encRule r) = if r = .r_rhs then .some [] else .none := by cases r <;> rfl
theorem pm_lhs : pmatch (.variants [(n!"Rules", n!"LHS")]) (encRule r) = if r = .r_lhs then .some [] else .none := by cases r <;> rfl
theorem pm_comment : pmatch (.variants [(n!"Rules", n!"Comment")]) (encRule r) = if r = .r_comment then .some [] else .none := by cases r <;> rfl
theorem pm_rule : pmatch (.variants [(n!"Rules", n!"Rule")]) (encRule r) = if r = .r_rule then .some [] else .none := by cases r <;> rfl
end

theorem dbg_rule (r : Dsl) : ∃ s, dbg (encRule r) = .some s := ⟨_, rfl⟩

/-! ## terminal -/

theorem sub_le {a b : Nat} (h : b ≤ a) : binop .sub (.num true a) (.num true b) = .ok (.num true (a - b)) .none := by simp [binop, h]
theorem sub_lt {a b : Nat} (h : a < b) : binop .sub (.num true a) (.num true b) = .panic := by
  have : ¬ b ≤ a := by omega
  simp [binop, this]
theorem sub_zero_panic {a : Nat} (h : a = 0) : binop .sub (.num true a) (.num false 1) = .panic := by subst h; exact sub_one_panic
theorem eq_num (a b : Nat) : binop .eq (.num true a) (.num false b) = .ok (.bool (decide (a = b))) .none := by
  simp only [binop, valEq]
  rfl

theorem eq_str (a b : Bytes) : binop .eq (.str a) (.str b) = .ok (.bool (decide (a = b))) .none := by
  simp only [binop, valEq]
  by_cases h : a = b <;> simp [h]

variable {e : Gen.Env} (S L : Val)

theorem call_term (hi : Input e) (a : Acc) (i : Nat) {m : Nat} (hm : 3 ≤ m) :
    (callN (World.gen ord) m Ast.GeneratedCode.terminal [encOut a.1, S, encTree e.tree, .str e.src, encKey i]).Sim (terminal e a i)
      fun r => .ok (encK r.1) [encOut r.2.1, S, encTree e.tree, .str e.src, encKey i] := by
  rw [callN_succ rfl rfl (by omega), terminal]
  rcases getNode_cases e.tree i with ⟨nd, h, hmem⟩ | ⟨q, h⟩
  · rw [h]
    simp only [Out.bind_ok]
    have hp := hi.pos nd hmem
    by_cases h1 : nd.stop < nd.start
    · rw [if_pos h1]
      rs [Ast.GeneratedCode.terminal, callMeth_pub, call_get_node ord h, fieldVal_start, fieldVal_stop, sub_lt h1]
      rfl
    · rw [if_neg h1]
      have h1' : nd.start ≤ nd.stop := by omega
      by_cases h2 : nd.stop - nd.start = 2
      · rw [if_pos h2]
        rs [Ast.GeneratedCode.terminal, callMeth_pub, call_get_node ord h, fieldVal_start, fieldVal_stop, sub_le h1', eq_num, h2, decide_true, callMeth_out, to_string_lib,
          push_terminal ord, push_seq ord]
        rfl
      · rw [if_neg h2]
        have hd : decide (nd.stop - nd.start = 2) = false := decide_eq_false h2
        by_cases h0 : nd.stop = 0
        · rw [if_pos h0]
          rs [Ast.GeneratedCode.terminal, callMeth_pub, call_get_node ord h, fieldVal_start, fieldVal_stop, sub_le h1', eq_num, hd, add_start hp, cast_usize, sub_zero_panic h0]
          rfl
        · rw [if_neg h0]
          have hsl := slice_ascii hi.ascii (nd.start + 1) (nd.stop - 1) false false
          cases ho : Source.strSlice e.src (nd.start + 1) (nd.stop - 1) with
          | oof => trivial
          | panic q =>
            rw [ho] at hsl
            simp only at hsl
            rs [Ast.GeneratedCode.terminal, callMeth_pub, call_get_node ord h, fieldVal_start, fieldVal_stop, sub_le h1', eq_num, hd, add_start hp, cast_usize, sub_one h0, hsl]
            rfl
          | ok c =>
            rw [ho] at hsl
            simp only at hsl
            simp only [Out.bind_ok]
            by_cases c1 : c = [92]
            · have c1' : c = utf8Of "\\" := c1
              rw [if_pos c1]
              rs [Ast.GeneratedCode.terminal, callMeth_pub, call_get_node ord h, fieldVal_start, fieldVal_stop, sub_le h1', eq_num, hd, add_start hp, cast_usize, sub_one h0, hsl,
                to_string_lib, eq_str, c1', decide_true, callMeth_out, push_terminal ord]
              rfl
            · have d1 : decide (c = utf8Of "\\") = false := decide_eq_false c1
              rw [if_neg c1]
              by_cases c2 : c = [39]
              · have d2 : decide (c = utf8Of "'") = true := decide_eq_true c2
                rw [if_pos c2]
                rs [Ast.GeneratedCode.terminal, callMeth_pub, call_get_node ord h, fieldVal_start, fieldVal_stop, sub_le h1', eq_num, hd, add_start hp, cast_usize, sub_one h0, hsl,
                  to_string_lib, eq_str, d1, d2, callMeth_out, push_terminal ord]
                rfl
              · have d2 : decide (c = utf8Of "'") = false := decide_eq_false c2
                rw [if_neg c2]
                rs [Ast.GeneratedCode.terminal, callMeth_pub, call_get_node ord h, fieldVal_start, fieldVal_stop, sub_le h1', eq_num, hd, add_start hp, cast_usize, sub_one h0, hsl,
                  to_string_lib, eq_str, d1, d2, callMeth_out, push_terminal ord]
                rfl
  · rw [h]
    rs [Ast.GeneratedCode.terminal, callMeth_pub, call_get_node_panic ord h]
    rfl

/-! ## var_name -/

/-- The left recursive rules, with the rules involved. -/

theorem mapGet_sets (m : Map (List Bytes)) (k : Bytes) :
    mapGet (.str k) (m.map fun p => (.str p.1, .set (p.2.map .str))) = (m.get k).map fun l => Val.set (l.map .str) := by
  induction m with
  | nil => rfl
  | cons p m ih =>
    rw [List.map_cons, mapGet, valEq_str]
    by_cases h : p.1 = k
    · simp [h, Map.get]
    · have : (k == p.1) = false := by simpa using fun e => h e.symm
      simp [Map.get] at ih
      simp [h, this, Map.get, ih]

variable {L} in
theorem Sets.call {ms : Map (List Bytes)} (h : Sets L ms) {m : Nat} (hm : 1 ≤ m) :
    callN (World.gen ord) m Ast.LeftRecursionDetector.get_left_recursion_rules [L] = .ok (encSets ms) [L] := by
  obtain ⟨R, rfl, hR⟩ := h.def_
  rw [callN_succ rfl rfl (by omega)]
  rs [Ast.LeftRecursionDetector.get_left_recursion_rules, hR]

variable {L} in
theorem Sets.meth {ms : Map (List Bytes)} (h : Sets L ms) (W C e m es vs env) : callMeth W C e L m es vs env =
    (match W.fn? (.some n!"LeftRecursionDetector") m with | .some f => .ofCall f.muts (.cons e es) env (C.fn f (L :: vs)) | .none => .stuck) := by
  obtain ⟨R, rfl, h⟩ := h.def_
  rfl

theorem mapN_cap (C : Calls) (k : Nat) (l : List Bytes) (hl : ∀ c ∈ l, ascii c = true) (env : Env) :
    (mapN (inScope (.var n!"rule_name") fun env => ev (World.gen ord) C k capEx env) (l.map .str) env).Sim (mapOut capitalise l)
      fun ls => .ok (.tuple (ls.map .str)) env := by
  induction l with
  | nil => rfl
  | cons c l ih =>
    have ih := ih fun c h => hl c (by simp [h])
    rw [List.map_cons, mapN, mapOut]
    simp only [inScope]
    cases c with
    | nil =>
      rs [ev_cap_nil]
      rfl
    | cons x xs =>
      rw [capitalise]
      simp only [pmatch_var, Res.ifMatch_some, List.cons_append, List.nil_append, ev_cap ord C k (hl (x :: xs) (by simp)), Out.bind_ok, Res.drop_ok, List.length_cons, List.length_nil,
        Nat.reduceAdd, List.drop_succ_cons, List.drop_zero, Res.bind_ok]
      cases ho : mapOut capitalise l with
      | oof => trivial
      | panic q =>
        rw [ho] at ih
        have ih : mapN _ _ _ = .panic := ih
        rw [ih]; rfl
      | ok ls =>
        rw [ho] at ih
        have ih : mapN _ _ _ = .ok _ _ := ih
        rw [ih]; rfl

theorem mapOut_cap_panic {l : List Bytes} (h : [] ∈ l) : mapOut capitalise l = .panic .expectFailed := by
  induction l with
  | nil => cases h
  | cons c l ih =>
    rw [mapOut]
    cases c with
    | nil => rfl
    | cons x xs =>
      have : [] ∈ l := by simpa using h
      rw [ih this]
      rfl

/-- The names of the involved rules, whatever their order. -/
theorem mapOut_cap_perm {l l' : List Bytes} (h : l.Perm l') : (∃ vs vs', mapOut capitalise l = .ok vs ∧ mapOut capitalise l' = .ok vs' ∧ sortNames vs = sortNames vs') ∨
    ∃ q q', mapOut capitalise l = .panic q ∧ mapOut capitalise l' = .panic q' := by
  by_cases h0 : [] ∈ l
  · exact .inr ⟨_, _, mapOut_cap_panic h0, mapOut_cap_panic (h.mem_iff.1 h0)⟩
  · refine .inl ⟨_, _, mapOut_cap fun x hx e => h0 (e ▸ hx), mapOut_cap fun x hx e => h0 (h.mem_iff.2 (e ▸ hx)), sortNames_perm (h.map cap)⟩

theorem perm_map_str {l : List Bytes} {vs : List Val} (h : vs.Perm (l.map .str)) : ∃ l' : List Bytes, vs = l'.map .str ∧ l'.Perm l := by
  have hv : ∀ v ∈ vs, ∃ s, v = .str s := by
    intro v hv
    have := h.mem_iff.1 hv
    simp only [List.mem_map] at this
    obtain ⟨s, -, rfl⟩ := this
    exact ⟨s, rfl⟩
  let g : Val → Bytes := fun v => match v with | .str s => s | _ => []
  refine ⟨vs.map g, ?_, ?_⟩
  · rw [List.map_map]
    refine (List.map_id vs).symm.trans (List.map_congr_left fun v h => ?_)
    obtain ⟨s, rfl⟩ := hv v h
    rfl
  · have := h.map g
    rw [List.map_map] at this
    refine this.trans (.of_eq ?_)
    exact (List.map_congr_left fun v _ => rfl).trans (List.map_id l)

theorem collect_lib (l : List Val) : vecLib n!"collect" l [] = .ok (.vec l) .none := rfl
theorem sort_lib (l : List Bytes) : vecLib n!"sort" (l.map .str) [] = .ok unit (.some (.vec ((sortNames l).map .str))) := by
  simp [vecLib, strs_map, sortNames]

theorem call_var (hi : Input e) (hord : ∀ l, (ord l).Perm l) (hL : Sets L e.lr) (a : Acc) (i : Nat) {m : Nat} (hm : 4 ≤ m) :
    (callN (World.gen ord) m Ast.GeneratedCode.var_name [L, encOut a.1, encSym e.src e.sym, encTree e.tree, .str e.src, encKey i]).Sim (varName e a i)
      fun r => .ok (encK r.1) [L, encOut r.2.1, encSym e.src e.sym, encTree e.tree, .str e.src, encKey i] := by
  rw [callN_succ rfl rfl (by omega), varName]
  rcases getNode_cases e.tree i with ⟨nd, h, hmem⟩ | ⟨q, h⟩
  · rw [h]
    simp only [Out.bind_ok]
    have hp := hi.pos nd hmem
    by_cases h0 : nd.stop = 0
    · rw [if_pos h0]
      rs [Ast.GeneratedCode.var_name, callMeth_pub, call_get_node ord h, fieldVal_start, fieldVal_stop, add_start hp, cast_usize, sub_zero_panic h0]
      rfl
    · rw [if_neg h0]
      have hsl := slice_ascii hi.ascii (nd.start + 1) (nd.stop - 1) false false
      cases ho : Source.strSlice e.src (nd.start + 1) (nd.stop - 1) with
      | oof => trivial
      | panic q =>
        rw [ho] at hsl
        simp only at hsl
        rs [Ast.GeneratedCode.var_name, callMeth_pub, call_get_node ord h, fieldVal_start, fieldVal_stop, add_start hp, cast_usize, sub_one h0, hsl]
        rfl
      | ok c =>
        rw [ho] at hsl
        simp only at hsl
        simp only [Out.bind_ok]
        have hc := strSlice_ascii hi.ascii ho
        have hg := mapGet_sets e.lr c
        cases hlr : e.lr.get c with
        | some inv =>
          rw [hlr, Option.map_some] at hg
          obtain ⟨l', hl', hperm⟩ := perm_map_str (hord (inv.map .str))
          have hasc : ∀ c ∈ l', ascii c = true := fun c h => hL.ascii _ _ hlr c (hperm.mem_iff.1 h)
          rs [Ast.GeneratedCode.var_name, callMeth_pub, call_get_node ord h, fieldVal_start, fieldVal_stop, add_start hp, cast_usize, sub_one h0, hsl, to_string_lib, macroCall, hL.meth, hL.call ord,
            encSets, mapLib, hg, optVal, optLib, Option.isSome_some, Option.isSome_none, setLib, hl', vecItems]
          have H := mapN_cap ord ⟨callN (World.gen ord) (m - 1), cloN (World.gen ord) (m - 1)⟩ (m - 1) l' hasc
          rcases mapOut_cap_perm (hperm.trans (e.ord.ok [7, i] inv).symm) with ⟨vs, vs', h1, h2, h3⟩ | ⟨q, q', h1, h2⟩
          · rw [h1] at H
            rw [h2]
            have H : ∀ env, mapN _ _ _ = .ok _ _ := H
            rw [H]
            rs [collect_lib, sort_lib, callMeth_out, push_lr ord, Out.bind_ok, h3]
            rfl
          · rw [h1] at H
            rw [h2]
            have H : ∀ env, mapN _ _ _ = .panic := H
            rw [H]
            rfl
        | none =>
          rw [hlr, Option.map_none] at hg
          have hin := call_is_inline ord e.src e.sym c (n := m - 1) (by omega)
          by_cases hb : e.sym.isInline c = true
          · simp only [hb, if_true]
            rw [hb] at hin
            rs [Ast.GeneratedCode.var_name, callMeth_pub, call_get_node ord h, fieldVal_start, fieldVal_stop, add_start hp, cast_usize, sub_one h0, hsl, to_string_lib, macroCall, hL.meth, hL.call ord,
              encSets, mapLib, hg, optVal, optLib, Option.isSome_some, Option.isSome_none, callMeth_sym, hin, callMeth_out, push_inlined ord]
            rfl
          · have hb : e.sym.isInline c = false := by simpa using hb
            simp only [hb, Bool.false_eq_true, if_false]
            rw [hb] at hin
            rs [Ast.GeneratedCode.var_name, callMeth_pub, call_get_node ord h, fieldVal_start, fieldVal_stop, add_start hp, cast_usize, sub_one h0, hsl, to_string_lib, macroCall, hL.meth, hL.call ord,
              encSets, mapLib, hg, optVal, optLib, Option.isSome_some, Option.isSome_none, callMeth_sym, hin, callMeth_out, push_varName ord]
            rfl
  · rw [h]
    rs [Ast.GeneratedCode.var_name, callMeth_pub, call_get_node_panic ord h]
    rfl

/-! ## ordered_choice_match_range -/

theorem fold_hex (s : Bytes) (a : Option Nat) : s.foldl (fun acc c => acc.bind fun v => (hexDig c).bind fun d =>
      if v * 16 + d.toNat < 4294967296 then .some (v * 16 + d.toNat) else .none) a =
    s.foldl (fun acc c => acc.bind fun v => (hexDigit c).bind fun d => if v * 16 + d < 4294967296 then some (v * 16 + d) else none) a := by
  have : ∀ c : UInt8, (hexDig c).map UInt8.toNat = hexDigit c := by
    intro c
    have hlt : c.toNat < 256 := c.toNat_lt
    simp only [hexDig, hexDigit, isDig, Bool.and_eq_true, decide_eq_true_eq, UInt8.le_iff_toNat_le, UInt8.reduceToNat]
    by_cases h1 : 48 ≤ c.toNat ∧ c.toNat ≤ 57
    · simp only [h1, and_self, if_true, Option.map_some, UInt8.toNat_sub, UInt8.reduceToNat]
      congr 1; omega
    · simp only [h1, if_false]
      by_cases h2 : 65 ≤ c.toNat ∧ c.toNat ≤ 70
      · have : ¬ (97 ≤ c.toNat ∧ c.toNat ≤ 102) := by omega
        simp only [h2, this, and_self, if_true, if_false, Option.map_some, UInt8.toNat_sub, UInt8.reduceToNat]
        congr 1; omega
      · by_cases h3 : 97 ≤ c.toNat ∧ c.toNat ≤ 102
        · simp only [h2, h3, and_self, if_true, if_false, Option.map_some, UInt8.toNat_sub, UInt8.reduceToNat]
          congr 1; omega
        · simp only [h2, h3, if_false, Option.map_none]
  induction s generalizing a with
  | nil => rfl
  | cons c s ih =>
    rw [List.foldl_cons, List.foldl_cons, ih]
    congr 2
    funext v
    rw [← this c]
    cases hexDig c <;> rfl

theorem radix_hex (s : Bytes) : radix16 s = fromHex s := by
  unfold radix16 fromHex
  cases s with
  | nil => rfl
  | cons c s => exact fold_hex (c :: s) (some 0)

variable (e) in
/-- The value of an end of a range. -/
def rangeValue (i : Nat) : Out Nat := do
  let child ← e.tree.getNode i
  if child.rule = .r_terminal then do
    let contents ← (if child.stop = 0 then .panic .overflow else Source.strSlice e.src (child.start + 1) (child.stop - 1))
    match contents with
    | [] => .panic .indexOutOfBounds
    | c :: _ => .ok c.toNat
  else if child.rule = .r_integer then .panic .explicit
  else if child.rule = .r_hex then do
    let contents ← Source.strSlice e.src (child.start + 2) child.stop
    match fromHex contents with
    | none => .panic .explicit
    | some v => .ok v
  else .panic .explicit

structure RangeAcc where
  start : Option Nat
  stop : Option Nat
  ret : Nat
  tree : BTree

variable (e) in
def rangeStep (s : RangeAcc) (i : Nat) : Out RangeAcc := do
  let value ← rangeValue e i
  match s.start with
  | none => .ok { s with start := some value }
  | some st => .ok { s with stop := some value, ret := s.tree.length, tree := s.tree ++ [⟨.matchRange st value, none, none⟩] }

theorem matchRangeLoop_eq (is : List Nat) (s : RangeAcc) : matchRangeLoop e is s.start s.ret s.tree =
    ((is.foldlM (rangeStep e) s : Out RangeAcc) >>= fun s => .ok (s.ret, s.tree)) := by
  induction is generalizing s with
  | nil => rfl
  | cons i is ih =>
    rw [matchRangeLoop, List.foldlM_cons, rangeStep, rangeValue]
    cases e.tree.getNode i with
    | oof => rfl
    | panic q => rfl
    | ok child =>
      simp only [Out.bind_ok]
      generalize (if child.rule = .r_terminal then _ else _ : Out Nat) = v
      cases v with
      | oof => rfl
      | panic q => rfl
      | ok v =>
        simp only [Out.bind_ok]
        cases s with
        | mk st sp r t =>
          cases st with
          | none => exact ih ⟨some v, sp, r, t⟩
          | some st => exact ih ⟨some st, some v, t.length, t ++ [⟨.matchRange st v, none, none⟩]⟩

theorem index_bytes_nil (w) : indexVal (.bytes []) (.num w 0) = .panic := rfl
theorem index_bytes_cons (c s w) : indexVal (.bytes (c :: s)) (.num w 0) = .ok (.num false c.toNat) .none := rfl
theorem as_bytes_lib (s : Bytes) : strLib n!"as_bytes" s [] = .ok (.bytes s) .none := by simp [strLib]
theorem cast_u32 (c : UInt8) (w) : cast (.num w c.toNat) n!"u32" = .some (.num true c.toNat) := by
  have := c.toNat_lt
  simp only [cast]
  rw [Nat.mod_eq_of_lt (by omega)]
  rfl
theorem radix_lib (s : Bytes) : libFn [n!"u32", n!"from_str_radix"] [.str s, .num false 16] =
    .some (.ok (match fromHex s with | .some n => .some (.num true n) | .none => .none) .none) := by
  rw [← radix_hex]; rfl

/-- Variables that may not have a value yet. -/
def optNum : Option Nat → Val
  | none => unit
  | some v => .num true v

theorem call_range (hi : Input e) (a : Acc) (i : Nat) {m : Nat} (hm : 3 ≤ m) :
    (callN (World.gen ord) m Ast.GeneratedCode.ordered_choice_match_range [encOut a.1, S, encTree e.tree, .str e.src, encKey i]).Sim (orderedChoiceMatchRange e a i)
      fun r => .ok (encK r.1) [encOut r.2.1, S, encTree e.tree, .str e.src, encKey i] := by
  rw [callN_succ rfl rfl (by omega), orderedChoiceMatchRange]
  rcases getNode_cases e.tree i with ⟨nd, h, hmem⟩ | ⟨q, h⟩
  · rw [h]
    simp only [Out.bind_ok]
    rw [matchRangeLoop_eq nd.children ⟨none, none, 0, a.1⟩]
    rs [Ast.GeneratedCode.ordered_choice_match_range, callMeth_pub, call_get_node ord h, callMeth_node, call_get_children, cast, items, Nat.zero_mod]
    generalize hL : forN _ _ _ = L
    generalize hO : (List.foldlM _ _ _ : Out _) = O
    have R : Loop L O (fun _ => True) fun s => [(n!"value_end", optNum s.stop), (n!"value_start", .num true (s.start.getD 0)), (n!"start_set", .bool s.start.isSome), (n!"ret_key", encK s.ret),
        (n!"node", encNode nd), (n!"out_tree", encOut s.tree), (n!"_symbol_table", S), (n!"tree", encTree e.tree), (n!"source", .str e.src), (n!"index", encKey i)] := by
      rw [← hL, ← hO]
      refine forN_loop rfl trivial fun b _ s _ => ?_
      rw [rangeStep, rangeValue]
      simp only [inScope]
      rcases getNode_cases e.tree b with ⟨cd, h, hmem⟩ | ⟨q, h⟩
      · rw [h]
        simp only [Out.bind_ok]
        have hp := hi.pos cd hmem
        by_cases h1 : cd.rule = .r_terminal
        · rw [if_pos h1]
          by_cases h0 : cd.stop = 0
          · rw [if_pos h0]
            refine .panic ?_
            rs [callMeth_pub, call_get_node ord h, fieldVal_rule, pm_terminal, h1, fieldVal_start, fieldVal_stop, add_start hp, cast_usize, sub_zero_panic h0]
          · rw [if_neg h0]
            have hsl := slice_ascii hi.ascii (cd.start + 1) (cd.stop - 1) false false
            cases ho : Source.strSlice e.src (cd.start + 1) (cd.stop - 1) with
            | oof => trivial
            | panic q =>
              rw [ho] at hsl
              simp only at hsl
              refine .panic ?_
              rs [callMeth_pub, call_get_node ord h, fieldVal_rule, pm_terminal, h1, fieldVal_start, fieldVal_stop, add_start hp, cast_usize, sub_one h0, hsl]
            | ok c =>
              rw [ho] at hsl
              simp only at hsl
              simp only [Out.bind_ok]
              cases s with
              | mk st sp r t =>
              cases c with
              | nil =>
                refine .panic ?_
                cases st <;>
                rs [callMeth_pub, call_get_node ord h, fieldVal_rule, pm_terminal, h1, fieldVal_start, fieldVal_stop, add_start hp, cast_usize, sub_one h0, hsl, to_string_lib,
                  Option.isSome_none, Option.isSome_some, Bool.not_false, Bool.not_true, as_bytes_lib, index_bytes_nil]
              | cons c cs =>
                cases st with
                | none =>
                  refine .ok (v := unit) ?_ trivial
                  rs [callMeth_pub, call_get_node ord h, fieldVal_rule, pm_terminal, h1, fieldVal_start, fieldVal_stop, add_start hp, cast_usize, sub_one h0, hsl, to_string_lib,
                    Option.isSome_none, Option.isSome_some, Bool.not_false, Bool.not_true, as_bytes_lib, index_bytes_cons, cast_u32, Option.getD_some, Option.getD_none]
                | some st =>
                  refine .ok (v := unit) ?_ trivial
                  rs [callMeth_pub, call_get_node ord h, fieldVal_rule, pm_terminal, h1, fieldVal_start, fieldVal_stop, add_start hp, cast_usize, sub_one h0, hsl, to_string_lib,
                    Option.isSome_none, Option.isSome_some, Bool.not_false, Bool.not_true, as_bytes_lib, index_bytes_cons, cast_u32, Option.getD_some, callMeth_out, push_range ord, optNum]
        · rw [if_neg h1]
          by_cases h2 : cd.rule = .r_integer
          · rw [if_pos h2]
            refine .panic ?_
            rs [callMeth_pub, call_get_node ord h, fieldVal_rule, pm_terminal, pm_integer, h2, macroCall]
          · rw [if_neg h2]
            by_cases h3 : cd.rule = .r_hex
            · rw [if_pos h3]
              have hsl := slice_ascii hi.ascii (cd.start + 2) cd.stop false false
              cases ho : Source.strSlice e.src (cd.start + 2) cd.stop with
              | oof => trivial
              | panic q =>
                rw [ho] at hsl
                simp only at hsl
                refine .panic ?_
                rs [callMeth_pub, call_get_node ord h, fieldVal_rule, pm_terminal, pm_integer, pm_hex, h3, fieldVal_start, fieldVal_stop, add_start hp, cast_usize, hsl]
              | ok c =>
                rw [ho] at hsl
                simp only at hsl
                simp only [Out.bind_ok]
                cases hx : fromHex c with
                | none =>
                  refine .panic ?_
                  rs [callMeth_pub, call_get_node ord h, fieldVal_rule, pm_terminal, pm_integer, pm_hex, h3, fieldVal_start, fieldVal_stop, add_start hp, cast_usize, hsl, to_string_lib,
                    radix_hex, hx, macroCall]
                | some v =>
                  cases s with
                  | mk st sp r t =>
                  cases st with
                  | none =>
                    refine .ok (v := unit) ?_ trivial
                    rs [callMeth_pub, call_get_node ord h, fieldVal_rule, pm_terminal, pm_integer, pm_hex, h3, fieldVal_start, fieldVal_stop, add_start hp, cast_usize, hsl, to_string_lib,
                      radix_hex, hx, Option.isSome_none, Option.isSome_some, Bool.not_false, Bool.not_true, Option.getD_some, Option.getD_none]
                  | some st =>
                    refine .ok (v := unit) ?_ trivial
                    rs [callMeth_pub, call_get_node ord h, fieldVal_rule, pm_terminal, pm_integer, pm_hex, h3, fieldVal_start, fieldVal_stop, add_start hp, cast_usize, hsl, to_string_lib,
                      radix_hex, hx, Option.isSome_none, Option.isSome_some, Bool.not_false, Bool.not_true, Option.getD_some, callMeth_out, push_range ord, optNum]
            · rw [if_neg h3]
              refine .panic ?_
              obtain ⟨w, hw⟩ := dbg_rule cd.rule
              rs [callMeth_pub, call_get_node ord h, fieldVal_rule, pm_terminal, pm_integer, pm_hex, h1, h2, h3, render, hw]
      · rw [h]
        refine .panic ?_
        rs [callMeth_pub, call_get_node_panic ord h]
    clear hL hO
    cases O with
    | oof => trivial
    | panic q => obtain rfl := R; rfl
    | ok s => obtain ⟨rfl, -⟩ := R; rfl
  · rw [h]
    rs [Ast.GeneratedCode.ordered_choice_match_range, callMeth_pub, call_get_node_panic ord h]
    rfl

/-! ## string_terminal -/

variable (e) in
/-- A character of a string. -/
def stringValue (i : Nat) : Out Nat := do
  let child ← e.tree.getNode i
  if child.rule = .r_ascii then do
    let s ← Source.byteSlice e.src child.start child.stop
    match s with
    | [] => .panic .indexOutOfBounds
    | c :: _ => .ok c.toNat
  else if child.rule = .r_integer then .panic .explicit
  else if child.rule = .r_hex then do
    let contents ← Source.strSlice e.src (child.start + 2) child.stop
    match fromHex contents with
    | none => .panic .expectFailed
    | some v => Out.ofOption .expectFailed (charFromU32 v)
  else .panic .explicit

variable (e) in
def stringStep (l : List Nat) (i : Nat) : Out (List Nat) := do
  let c ← stringValue e i
  .ok (l ++ [c])

theorem stringTerminalData_eq (is l : List Nat) : (is.foldlM (stringStep e) l : Out (List Nat)) = (stringTerminalData e is >>= fun cs => .ok (l ++ cs)) := by
  induction is generalizing l with
  | nil => simp [stringTerminalData]
  | cons i is ih =>
    rw [stringTerminalData, List.foldlM_cons, stringStep, stringValue]
    cases e.tree.getNode i with
    | oof => rfl
    | panic q => rfl
    | ok child =>
      simp only [Out.bind_ok]
      generalize (if child.rule = .r_ascii then _ else _ : Out Nat) = v
      cases v with
      | oof => rfl
      | panic q => rfl
      | ok v =>
        simp only [Out.bind_ok]
        rw [ih]
        cases stringTerminalData e is with
        | oof => rfl
        | panic q => rfl
        | ok cs => simp

theorem slice_bytes (s : Bytes) (a b : Nat) (w w') : sliceVal (.bytes s) (.num w a) (.num w' b) = match Source.byteSlice s a b with | .ok t => .ok (.bytes t) .none | _ => .panic := by
  unfold sliceVal Source.byteSlice
  by_cases h : a ≤ b ∧ b ≤ s.length
  · simp [h, List.drop_take]
  · simp only [if_neg h]

theorem cast_char (c : UInt8) (w) : cast (.num w c.toNat) n!"char" = .some (.char c.toNat) := by
  have := c.toNat_lt
  have h : c.toNat % 256 = c.toNat := Nat.mod_eq_of_lt (by omega)
  simp [cast, h]

def Scalar (c : Nat) : Prop := c < 0xD800 ∨ (0xDFFF < c ∧ c < 0x110000)

theorem len_lib {c : Nat} (h : Scalar c) : ∃ n, charLib n!"len_utf8" c [] = .ok (.num false n) .none ∧ (n = 1 ↔ c < 128) := by
  refine ⟨_, rfl, ?_⟩
  have hv : c.isValidChar := h
  rw [String.length_utf8EncodeChar, Char.utf8Size]
  have : (Char.ofNat c).val.toNat = c := by
    simp only [Char.ofNat, hv, dite_true]
    rfl
  simp only [UInt32.le_iff_toNat_le, this]
  simp
  repeat' split
  all_goals omega

theorem push_lib (vs : List Val) (v : Val) : vecLib n!"push" vs [v] = .ok unit (.some (.vec (vs ++ [v]))) := rfl

theorem ne_num (a b : Nat) (u w) : binop .ne (.num u a) (.num w b) = .ok (.bool (decide (a ≠ b))) .none := by
  simp only [binop, valEq]
  by_cases h : a = b <;> simp [h]

theorem foldlM_ok {σ β : Type} (f : σ → β → σ) (xs : List β) (s : σ) : (xs.foldlM (fun s b => .ok (f s b)) s : Out σ) = .ok (xs.foldl f s) := by
  induction xs generalizing s with
  | nil => rfl
  | cons x xs ih => exact ih (f s x)

theorem all_fold (l : List Nat) (b : Bool) : l.foldl (fun b c => if c < 128 then b else false) b = (b && l.all (· < 128)) := by
  induction l generalizing b with
  | nil => simp
  | cons c l ih =>
    rw [List.foldl_cons, ih]
    by_cases h : c < 128 <;> simp [h]

theorem call_string (hi : Input e) (a : Acc) (i : Nat) {m : Nat} (hm : 3 ≤ m) :
    (callN (World.gen ord) m Ast.GeneratedCode.string_terminal [encOut a.1, S, encTree e.tree, .str e.src, encKey i]).Sim (stringTerminal e a i)
      fun r => .ok (encK r.1) [encOut r.2.1, S, encTree e.tree, .str e.src, encKey i] := by
  rw [callN_succ rfl rfl (by omega), stringTerminal]
  rcases getNode_cases e.tree i with ⟨nd, h, hmem⟩ | ⟨q, h⟩
  · rw [h]
    simp only [Out.bind_ok]
    have hd := stringTerminalData_eq (e := e) nd.children []
    rs [Ast.GeneratedCode.string_terminal, callMeth_pub, call_get_node ord h, callMeth_node, call_get_children, items]
    generalize hL : forN _ _ _ = L
    generalize hO : (List.foldlM _ _ _ : Out _) = O at hd
    have R : Loop L O (fun l => ∀ c ∈ l, Scalar c) fun l => [(n!"data", .vec (l.map .char)),
        (n!"node", encNode nd), (n!"out_tree", encOut a.1), (n!"_symbol_table", S), (n!"tree", encTree e.tree), (n!"source", .str e.src), (n!"index", encKey i)] := by
      rw [← hL, ← hO]
      refine forN_loop rfl (by simp) fun b _ l hl => ?_
      rw [stringStep, stringValue]
      simp only [inScope]
      rcases getNode_cases e.tree b with ⟨cd, h, hmem⟩ | ⟨q, h⟩
      · rw [h]
        simp only [Out.bind_ok]
        have hp := hi.pos cd hmem
        by_cases h1 : cd.rule = .r_ascii
        · rw [if_pos h1]
          have hsl := slice_bytes e.src cd.start cd.stop false false
          cases ho : Source.byteSlice e.src cd.start cd.stop with
          | oof => trivial
          | panic q =>
            rw [ho] at hsl
            simp only at hsl
            refine .panic ?_
            rs [callMeth_pub, call_get_node ord h, fieldVal_rule, pm_ascii, h1, fieldVal_start, fieldVal_stop, as_bytes_lib, cast_usize, hsl]
          | ok c =>
            rw [ho] at hsl
            simp only at hsl
            simp only [Out.bind_ok]
            cases c with
            | nil =>
              refine .panic ?_
              rs [callMeth_pub, call_get_node ord h, fieldVal_rule, pm_ascii, h1, fieldVal_start, fieldVal_stop, as_bytes_lib, cast_usize, hsl, index_bytes_nil]
            | cons c cs =>
              refine .ok (v := unit) ?_ ?_
              · rs [callMeth_pub, call_get_node ord h, fieldVal_rule, pm_ascii, h1, fieldVal_start, fieldVal_stop, as_bytes_lib, cast_usize, hsl, index_bytes_cons, cast_char, push_lib]
                simp
              · intro x hx
                rcases List.mem_append.1 hx with hx | hx
                · exact hl x hx
                · have := c.toNat_lt
                  simp only [List.mem_singleton] at hx
                  subst hx
                  exact .inl (by omega)
        · rw [if_neg h1]
          by_cases h2 : cd.rule = .r_integer
          · rw [if_pos h2]
            refine .panic ?_
            rs [callMeth_pub, call_get_node ord h, fieldVal_rule, pm_ascii, pm_integer, h2, macroCall]
          · rw [if_neg h2]
            by_cases h3 : cd.rule = .r_hex
            · rw [if_pos h3]
              have hsl := slice_ascii hi.ascii (cd.start + 2) cd.stop false false
              cases ho : Source.strSlice e.src (cd.start + 2) cd.stop with
              | oof => trivial
              | panic q =>
                rw [ho] at hsl
                simp only at hsl
                refine .panic ?_
                rs [callMeth_pub, call_get_node ord h, fieldVal_rule, pm_ascii, pm_integer, pm_hex, h3, fieldVal_start, fieldVal_stop, add_start hp, cast_usize, hsl]
              | ok c =>
                rw [ho] at hsl
                simp only at hsl
                simp only [Out.bind_ok]
                cases hx : fromHex c with
                | none =>
                  refine .panic ?_
                  rs [callMeth_pub, call_get_node ord h, fieldVal_rule, pm_ascii, pm_integer, pm_hex, h3, fieldVal_start, fieldVal_stop, add_start hp, cast_usize, hsl, to_string_lib,
                    radix_hex, hx, optLib]
                | some v =>
                  by_cases hv : v < 55296 ∨ (57343 < v ∧ v < 1114112)
                  · have hc : charFromU32 v = some v := if_pos hv
                    simp only [hc, Out.ofOption, Out.bind_ok]
                    refine .ok (v := unit) ?_ ?_
                    · rs [callMeth_pub, call_get_node ord h, fieldVal_rule, pm_ascii, pm_integer, pm_hex, h3, fieldVal_start, fieldVal_stop, add_start hp, cast_usize, hsl, to_string_lib,
                        radix_hex, hx, optLib, if_pos hv, push_lib]
                      simp
                    · intro x hx
                      rcases List.mem_append.1 hx with hx | hx
                      · exact hl x hx
                      · simp only [List.mem_singleton] at hx
                        subst hx
                        exact hv
                  · have hc : charFromU32 v = none := if_neg hv
                    simp only [hc, Out.ofOption]
                    refine .panic ?_
                    rs [callMeth_pub, call_get_node ord h, fieldVal_rule, pm_ascii, pm_integer, pm_hex, h3, fieldVal_start, fieldVal_stop, add_start hp, cast_usize, hsl, to_string_lib,
                      radix_hex, hx, optLib, if_neg hv]
            · rw [if_neg h3]
              refine .panic ?_
              obtain ⟨w, hw⟩ := dbg_rule cd.rule
              rs [callMeth_pub, call_get_node ord h, fieldVal_rule, pm_ascii, pm_integer, pm_hex, h1, h2, h3, render, hw]
      · rw [h]
        refine .panic ?_
        rs [callMeth_pub, call_get_node_panic ord h]
    clear hL hO
    cases hs : stringTerminalData e nd.children with
    | oof => trivial
    | panic q =>
      rw [hs] at hd
      have hd : O = .panic q := hd
      subst hd
      obtain rfl := R
      rfl
    | ok data =>
      rw [hs] at hd
      have hd : O = .ok data := hd
      subst hd
      obtain ⟨rfl, hsc⟩ := R
      simp only [Out.bind_ok]
      rs [Res.bind_ok, items]
      generalize hL : forN _ _ _ = L
      have R : Loop L (.ok (data.all (· < 128))) (fun _ => True) fun b => [(n!"all_ascii", .bool b), (n!"data", .vec (data.map .char)),
          (n!"node", encNode nd), (n!"out_tree", encOut a.1), (n!"_symbol_table", S), (n!"tree", encTree e.tree), (n!"source", .str e.src), (n!"index", encKey i)] := by
        have hf : (data.foldlM (fun b c => .ok (if c < 128 then b else false)) true : Out Bool) = .ok (data.all (· < 128)) := by
          rw [foldlM_ok, all_fold, Bool.true_and]
        rw [← hL, ← hf]
        refine forN_loop rfl trivial fun c hc b _ => ?_
        obtain ⟨n, hn, h1⟩ := len_lib (hsc c hc)
        refine .ok (v := unit) ?_ trivial
        simp only [inScope]
        by_cases h128 : c < 128
        · have : decide (n ≠ 1) = false := by simp [h1, h128]
          rs [hn, ne_num, this, h128]
          rfl
        · have : decide (n ≠ 1) = true := by simp [h1]; omega
          rs [hn, ne_num, this, h128]
      obtain ⟨rfl, -⟩ := R
      by_cases hall : data.all (· < 128) = true
      · rw [hall]
        rs [callMeth_out, push_stringAscii ord]
        rfl
      · have hall : data.all (· < 128) = false := by simpa using hall
        rw [hall]
        rs [callMeth_out, push_string ord]
        rfl
  · rw [h]
    rs [Ast.GeneratedCode.string_terminal, callMeth_pub, call_get_node_panic ord h]
    rfl

end PP.Rs
