import Verif.Spec.Rs.Interp
import Verif.Model.Gen.BinaryTree
import Verif.Model.Grammars.Dsl
import Verif.Model.Publisher
import Verif.Model.Gen.SymbolTable

/-! # Specification: the values of the generator that stand for syntax trees and expression trees -/
namespace PP.Rs
open PP.Gen
open PP.Mini (Name nameOf)

/-- The variants of the DSL's enum `Rules` (parser/src/rules.rs:17-49).  Rules marked `Inline` have none; no node carries them, and they
get their own names here. -/
def dslVariant : Dsl → Name
  | .r_alphabet_upper => n!"alphabet_upper"
  | .r_alphabet_lower => n!"alphabet_lower"
  | .r_num => n!"Num"
  | .r_numnozero => n!"NumNoZero"
  | .r_hexval => n!"HexVal"
  | .r_spaces => n!"spaces"
  | .r_specials => n!"specials"
  | .r_ascii => n!"ASCII"
  | .r_apostrophe => n!"apostrophe"
  | .r_quotationmark => n!"quotationmark"
  | .r_left_angle_bracket => n!"left_angle_bracket"
  | .r_right_angle_bracket => n!"right_angle_bracket"
  | .r_left_bracket => n!"left_bracket"
  | .r_right_bracket => n!"right_bracket"
  | .r_assignment => n!"assignment"
  | .r_end_rule => n!"end_rule"
  | .r_ampersand => n!"ampersand"
  | .r_exclamation_mark => n!"exclamation_mark"
  | .r_plus => n!"plus"
  | .r_star => n!"star"
  | .r_question_mark => n!"question_mark"
  | .r_comma => n!"comma"
  | .r_newline => n!"Newline"
  | .r_backslash => n!"backslash"
  | .r_var_name => n!"var_name"
  | .r_var_name_decl => n!"Var_Name_Decl"
  | .r_var_name_ref => n!"Var_Name_Ref"
  | .r_hex => n!"Hex"
  | .r_integer => n!"Integer"
  | .r_orderedchoicematchrange => n!"OrderedChoiceMatchRange"
  | .r_subexpression => n!"Subexpression"
  | .r_hooked_call => n!"Hooked_Call"
  | .r_epsilon => n!"Epsilon"
  | .r_stringterminal => n!"StringTerminal"
  | .r_terminal => n!"Terminal"
  | .r_nucleus => n!"Nucleus"
  | .r_atom => n!"Atom"
  | .r_and_predicate => n!"And_Predicate"
  | .r_not_predicate => n!"Not_Predicate"
  | .r_sequence => n!"Sequence"
  | .r_ordered_choice => n!"Ordered_Choice"
  | .r_one_or_more => n!"One_Or_More"
  | .r_zero_or_more => n!"Zero_Or_More"
  | .r_optional => n!"Optional"
  | .r_whitespace => n!"whitespace"
  | .r_rhs => n!"RHS"
  | .r_lhs => n!"LHS"
  | .r_rule => n!"Rule"
  | .r_grammar => n!"Grammar"
  | .r_comment => n!"Comment"
  | .r_semantic_instructions => n!"Semantic_Instructions"
  | .r_inline => n!"Inline"

def encKey (k : Nat) : Val := .struct n!"Key" [(0, .num true k)]
def encRule (r : Dsl) : Val := .data n!"Rules" (dslVariant r) []
/-- parser/src/publisher.rs:283-291 `struct Node` -/
def encNode (nd : Node Dsl) : Val :=
  .struct n!"Node" [(n!"index", encKey nd.index), (n!"rule", encRule nd.rule), (n!"start_position", .num true nd.start),
    (n!"end_position", .num true nd.stop), (n!"result", .bool nd.result), (n!"children", .vec (nd.children.map encKey))]
/-- parser/src/publisher.rs:12-14 `struct BasicPublisher` -/
def encTree (p : Publisher Dsl) : Val := .struct n!"BasicPublisher" [(n!"nodes", .vec (p.nodes.map encNode))]

/-- generator/src/binary_wo.rs:6-28 `enum Reference` -/
def encRef : Reference → Val
  | .terminal c => .data n!"Reference" n!"Terminal" [.str c]
  | .varName c => .data n!"Reference" n!"VarName" [.str c]
  | .oneOrMore => .data n!"Reference" n!"OneOrMore" []
  | .zeroOrMore => .data n!"Reference" n!"ZeroOrMore" []
  | .optional => .data n!"Reference" n!"Optional" []
  | .andPredicate => .data n!"Reference" n!"AndPredicate" []
  | .notPredicate => .data n!"Reference" n!"NotPredicate" []
  | .subexpression => .data n!"Reference" n!"Subexpression" []
  | .orderedChoice => .data n!"Reference" n!"OrderedChoice" []
  | .sequence => .data n!"Reference" n!"Sequence" []
  | .exec => .data n!"Reference" n!"Exec" []
  | .null => .data n!"Reference" n!"Null" []
  | .matchRange a b => .data n!"Reference" n!"OrderedChoiceMatchRange" [.num true a, .num true b]
  | .stringTerminal cs => .data n!"Reference" n!"StringTerminal" [.vec (cs.map .char)]
  | .stringTerminalAsciiOpt cs => .data n!"Reference" n!"StringTerminalAsciiOpt" [.vec (cs.map .char)]
  | .inlinedRule c => .data n!"Reference" n!"InlinedRule" [.str c]
  | .leftRecursiveRule c inv => .data n!"Reference" n!"LeftRecursiveRule" [.str c, .vec (inv.map .str)]
  | .hookedCall c => .data n!"Reference" n!"HookedCall" [.str c]

def encOpt (k : Option Nat) : Val := optVal (k.map encKey)
/-- generator/src/binary_wo.rs:444-448 `struct BinaryNode` -/
def encBNode (nd : BinaryNode) : Val :=
  .struct n!"BinaryNode" [(n!"reference", encRef nd.reference), (n!"lhs", encOpt nd.lhs), (n!"rhs", encOpt nd.rhs)]
/-- generator/src/binary_wo.rs:30-32 `struct BinaryTreeWO` -/
def encBTree (t : BTree) : Val := .struct n!"BinaryTreeWO" [(n!"nodes", .vec (t.map encBNode))]

/-- generator/src/symbol_table.rs:4-8 `struct SymbolTable`; the values of `inlined_rules` are empty strings -/
def encSym (src : Bytes) (t : SymbolTable) : Val :=
  .struct n!"SymbolTable" [(n!"names", .vec (t.names.map .str)), (n!"source", .str src),
    (n!"inlined_rules", .map (t.inlined.map fun p => (.str p.1, .str [])))]

/-- What the fragment asks of a node: names are ASCII, and the one reference that is printed with `{:?}` of a `Vec` is not there. -/
def NodeOk : Reference → Prop
  | .varName c | .inlinedRule c => ascii c = true
  | .leftRecursiveRule c inv => ascii c = true ∧ ∀ d ∈ inv, ascii d = true
  | .stringTerminal _ => False
  | _ => True

def TreeOk (t : BTree) : Prop := ∀ nd ∈ t, NodeOk nd.reference

/-- A syntax tree whose positions are those of a text shorter than 4 GiB, and none of whose nodes has more than `B` children. -/
structure TreeFits (p : Publisher Dsl) (B : Nat) : Prop where
  pos : ∀ nd ∈ p.nodes, nd.start + 2 < 4294967296
  width : ∀ nd ∈ p.nodes, nd.children.length ≤ B
  bound : B < 4294967296

end PP.Rs
