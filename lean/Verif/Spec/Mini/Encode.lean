import Verif.Spec.Mini.Interp
import Verif.Model.Context

/-! # Specification: the values of the core that stand for keys, rules, sources and trees

`vn` is the name of a rule's variant in the enum `Rules`. -/
namespace PP.Mini
variable {R : Type}

def encKey (k : Nat) : Val := .struct n!"Key" [(0, .int k)]
def encRule (vn : R → Name) (r : R) : Val := .variant n!"Rules" (vn r)
def encSource (s : Source) : Val := .struct n!"Source" [(n!"source", .str s.bytes), (n!"source_len", .int s.len)]
def encNode (vn : R → Name) (nd : Node R) : Val :=
  .struct n!"Node" [(n!"index", encKey nd.index), (n!"rule", encRule vn nd.rule), (n!"start_position", .int nd.start),
    (n!"end_position", .int nd.stop), (n!"result", .bool nd.result), (n!"children", .vec (nd.children.map encKey))]
def encPub (vn : R → Name) (p : Publisher R) : Val := .struct n!"BasicPublisher" [(n!"nodes", .vec (p.nodes.map (encNode vn)))]

end PP.Mini
