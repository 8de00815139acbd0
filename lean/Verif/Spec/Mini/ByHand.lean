import Verif.Spec.Mini.Crate
import Verif.Spec.Mini.Runnable

/-! # Specification: expressions written by hand with the functions of the core

The tests of the repository, and its users, call the functions of parser_core.rs and var_name.rs directly, e.g.
examples/example_10_basic_bench/src/lib.rs:7-24 `_var_name(&user_state, Rules::Rr, &context, rr)` or
parser/tests/tests_parser_basic.rs `_sequence(&_terminal(b'a'), &_terminal(b'b'))`. -/
namespace PP.Mini
open PP.Gen
variable {R : Type}

/-- The expression is made of calls of functions of the core: no inlined reference (a closure of its own), no hooked call. -/
def ByHand : Expr R → Prop
  | .andPredicate e | .notPredicate e | .oneOrMore e | .zeroOrMore e | .optional e | .subexpression e => ByHand e
  | .orderedChoice a b | .sequence a b => ByHand a ∧ ByHand b
  | .terminal _ | .stringTerminal _ | .matchRange _ _ | .varName _ | .varNameLR _ _ => True
  | .inlined _ | .hooked _ _ => False

/-- Makes the closure of the expression, executing the calls one after another.  `u` and `c` are the cells of the user state and of the context;
`vn r` and `fn r` are the variant `Rules::R` and the function `r`. -/
def make (Q : Prog) (n : Nat) (vn fn : R → Name) (u c : Nat) : Expr R → Heap → Res Val
  | .andPredicate e, h => (make Q n vn fn u c e h).bind fun v h => run Q n (.fn none n!"_and_predicate") [v] h
  | .notPredicate e, h => (make Q n vn fn u c e h).bind fun v h => run Q n (.fn none n!"_not_predicate") [v] h
  | .oneOrMore e, h => (make Q n vn fn u c e h).bind fun v h => run Q n (.fn none n!"_one_or_more") [v] h
  | .zeroOrMore e, h => (make Q n vn fn u c e h).bind fun v h => run Q n (.fn none n!"_zero_or_more") [v] h
  | .optional e, h => (make Q n vn fn u c e h).bind fun v h => run Q n (.fn none n!"_optional") [v] h
  | .subexpression e, h => (make Q n vn fn u c e h).bind fun v h => run Q n (.fn none n!"_subexpression") [v] h
  | .orderedChoice a b, h => (make Q n vn fn u c a h).bind fun v h => (make Q n vn fn u c b h).bind fun w h => run Q n (.fn none n!"_ordered_choice") [v, w] h
  | .sequence a b, h => (make Q n vn fn u c a h).bind fun v h => (make Q n vn fn u c b h).bind fun w h => run Q n (.fn none n!"_sequence") [v, w] h
  | .terminal b, h => run Q n (.fn none n!"_terminal") [.int b.toNat] h
  | .stringTerminal d, h => run Q n (.fn none n!"_string_terminal_opt_ascii") [.bytes d] h
  | .matchRange lo hi, h => run Q n (.fn none n!"_ordered_choice_match_range") [.int lo, .int hi] h
  | .varName r, h => run Q n (.fn none n!"_var_name") [.cell u, encRule vn r, .cell c, .fn none (fn r)] h
  | .varNameLR l r, h =>
    run Q n (.fn none n!"_var_name_indirect_left_recursion") [.cell u, .vec (l.map (encRule vn)), encRule vn r, .cell c, .fn none (fn r)] h
  | .inlined _, _ => .stuck
  | .hooked _ _, _ => .stuck

/-- The test of examples/example_10_basic_bench/src/lib.rs:7-24, with any text, expression and position, executed: `Source::new`, `BasicContext::new`,
`UserState::new`, the closure is made and called with `Key(0)` at the position; the result and the tree of nodes. -/
def runByHand (Q : Prog) (n : Nat) (vn fn : R → Name) (text : Bytes) (e : Expr R) (pos : Nat) : Res Val :=
  match Q.const? n!"RULES_SIZE" with
  | none => .stuck
  | some k =>
    (run Q n (.fn (some n!"Source") n!"new") [.str text] []).bind fun source h =>
    (run Q n (.fn (some n!"BasicContext") n!"new") [.int (text.length % 4294967296), .int k] h).bind fun context h =>
    let c := h.length
    (run Q n (.fn (some n!"UserState") n!"new") [] (h ++ [context])).bind fun user h =>
    let u := h.length
    (make Q n vn fn u c e (h ++ [user])).bind fun closure h =>
    (run Q n closure [encKey 0, source, .int pos] h).bind fun result h =>
    match h[c]? with
    | some context => (run Q n (.fn (some n!"BasicContext") n!"get_publisher") [context] h).bind fun tree h => .ok (.tuple [result, tree]) h
    | none => .stuck

/-- All rules the expression refers to, those in involved sets too, are in `S`. -/
def RefersTo (S : R → Prop) : Expr R → Prop
  | .andPredicate e | .notPredicate e | .oneOrMore e | .zeroOrMore e | .optional e | .subexpression e | .hooked _ e => RefersTo S e
  | .orderedChoice a b | .sequence a b => RefersTo S a ∧ RefersTo S b
  | .terminal _ | .stringTerminal _ | .matchRange _ _ => True
  | .varName r | .inlined r => S r
  | .varNameLR l r => S r ∧ ∀ x ∈ l, S x

/-- A function of the crate: the name of a rule in lower case. -/
def _root_.PP.Gen.DGrammar.IsFunction (g : DGrammar) (x : Bytes) : Prop := ∃ r ∈ g, x = lower r.name

section
variable {U : Type} [DecidableEq R]

/-- What the test sees of the model's result. -/
def encSeen (vn : R → Name) (x : Bool × Nat × St R U) : Val := .tuple [.tuple [.bool x.1, .int x.2.1], encPub vn x.2.2.pub]

/-- Expressions written by hand, called at any position of any text, do what the model's evaluator does from a fresh context. -/
structure ComputesByHand (Q : Prog) (P : Parser R U) (vn fn : R → Name) : Prop where
  sound : ∀ text e pos n v h, ByHand e → runByHand Q n vn fn text e pos = .ok v h →
    ∃ m x, eval P ⟨text⟩ m e 0 pos (St.new P.grammar P.userInit) = .ok x ∧ v = encSeen vn x
  complete : ∀ text e pos m x, ByHand e → eval P ⟨text⟩ m e 0 pos (St.new P.grammar P.userInit) = .ok x →
    ∃ N, ∀ n, N ≤ n → ∃ h, runByHand Q n vn fn text e pos = .ok (encSeen vn x) h
  panics : ∀ text e pos, ByHand e → ((∃ N, ∀ n, N ≤ n → runByHand Q n vn fn text e pos = .panic) ↔
    ∃ m p, eval P ⟨text⟩ m e 0 pos (St.new P.grammar P.userInit) = .panic p)
  total : ∀ text e pos n, ByHand e → runByHand Q n vn fn text e pos = .oof ∨ runByHand Q n vn fn text e pos = .panic ∨
    ∃ v h, runByHand Q n vn fn text e pos = .ok v h
end

end PP.Mini
