import Verif.Spec.Rs.Encode
import Verif.Model.Gen.Constructor

/-! # Specification: what is asked of the arguments of the generator's constructor -/
namespace PP.Rs
open PP.Gen

/-- A value of the type `HashMap<String, HashSet<String>>`. -/
def encSets (m : Map (List Bytes)) : Val := .map (m.map fun p => (.str p.1, .set (p.2.map .str)))

/-- The value `L` is a detector of left recursion that found the sets `m`, of ASCII names. -/
structure Sets (L : Val) (m : Map (List Bytes)) : Prop where
  def_ : ∃ R, L = .struct n!"LeftRecursionDetector" [(n!"rule_call_tree", R)] ∧ fieldVal R n!"involved_sets" = .some (encSets m)
  ascii : ∀ x s, m.get x = some s → ∀ c ∈ s, Rs.ascii c = true

/-- An ASCII text of less than 4 GiB. -/
structure Input (e : Gen.Env) : Prop where
  pos : ∀ nd ∈ e.tree.nodes, nd.start + 2 < 4294967296
  ascii : ascii e.src = true

/-- No string terminal of the tree has a character above 127 (these are printed with `{:?}` of a `Vec`, outside of the fragment). -/
def AsciiStrings (e : Gen.Env) : Prop :=
  ∀ nd ∈ e.tree.nodes, nd.rule = .r_stringterminal → ∀ data, stringTerminalData e nd.children = .ok data → data.all (· < 128) = true

/-- No right hand side of a rule makes a tree of 2^32 nodes. -/
def Sized (e : Gen.Env) : Prop :=
  ∀ root, e.tree.getNode 0 = .ok root → ∀ i ∈ root.children, ∀ nd, e.tree.getNode i = .ok nd → ∀ b ∈ nd.children, ∀ bd, e.tree.getNode b = .ok bd → bd.rule = .r_rhs →
    ∀ n hs k t hs', expr e n .rhs (BTree.new, hs) b = .ok (k, t, hs') → t.length + 1 < 4294967296

def AsciiAll (l : List Bytes) : Prop := ∀ s ∈ l, ascii s = true

/-- The arguments of `GeneratedCode::new`: the tree, its text, the symbol table and the value `L` of the detector. -/
structure Given (ord : List Val → List Val) (e : Gen.Env) (L : Val) (B : Nat) : Prop where
  input : Input e
  fits : TreeFits e.tree B
  perm : ∀ l, (ord l).Perm l
  sets : Sets L e.lr
  strings : AsciiStrings e
  sized : Sized e
  names : AsciiAll e.sym.names
  count : e.sym.names.length < 4294967296

/-! The tree under construction: keys are `u32`. -/

/-- A node with its keys as they are stored. -/
def wrapNode (nd : BinaryNode) : BinaryNode := ⟨nd.reference, nd.lhs.map (· % 4294967296), nd.rhs.map (· % 4294967296)⟩
def encOut (t : BTree) : Val := encBTree (t.map wrapNode)
def encK (k : Nat) : Val := encKey (k % 4294967296)

/-- The functions that compile expressions (generator/src/constructor.rs:312-958). -/
def exprName : Gen.Fn → Mini.Name
  | .rhs => n!"rhs"
  | .orderedChoice => n!"ordered_choice"
  | .sequence => n!"sequence"
  | .atom => n!"atom"
  | .optional => n!"optional"
  | .oneOrMore => n!"one_or_more"
  | .zeroOrMore => n!"zero_or_more"
  | .andPredicate => n!"and_predicate"
  | .notPredicate => n!"not_predicate"
  | .nucleus => n!"nucleus"
  | .subexpression => n!"subexpression"
  | .hookedCall => n!"hooked_call"

end PP.Rs
