import Verif.Spec.Rs.Syntax

/-! Generated by tools/gen2lean.py: the syntax trees of the source files of the generator. -/
namespace PP.Rs.Ast
open PP.Gen

/-- parser/src/keys.rs:5 -/
def usize.from : Fn :=
  ⟨(some n!"usize"), n!"from", .none, [(n!"i", false)], some (.block (.tail (.cast (.field (.path [n!"i"]) 0) n!"usize")))⟩

/-- The items of parser/src/keys.rs. -/
def keysItems : List Item :=
  [.tupleStruct n!"Key", .fn usize.from]

/-- parser/src/publisher.rs:17 -/
def BasicPublisher.eq : Fn :=
  ⟨(some n!"BasicPublisher"), n!"eq", .ref, [(n!"other", false)], some (.block (.tail (.meth (.path [n!"self"]) n!"partial_eq_kernel" (.cons
      (.path [n!"other"]) (.cons (.call [n!"Key"] (.cons (.int 0) .nil)) (.cons (.call [n!"Key"] (.cons (.int 0) .nil)) .nil))))))⟩

/-- parser/src/publisher.rs:23 -/
def BasicPublisher.partial_eq_kernel : Fn :=
  ⟨(some n!"BasicPublisher"), n!"partial_eq_kernel", .ref, [(n!"other", false), (n!"self_index", false), (n!"other_index", false)], some
      (.block (.letS (.var n!"self_node") (.meth (.path [n!"self"]) n!"get_node" (.cons (.path [n!"self_index"]) .nil))
    (.letS (.var n!"other_node") (.meth (.path [n!"other"]) n!"get_node" (.cons (.path [n!"other_index"]) .nil))
    (.tail (.ite (.bin .eq (.path [n!"self_node"]) (.path [n!"other_node"])) (.block (.exprS (.forIn (.var n!"index") (.call [n!"range"]
      (.cons (.int 0) (.cons (.meth (.field (.path [n!"self_node"]) n!"children") n!"len" .nil) .nil))) (.block (.exprS (.ite (.bin .ne
      (.meth (.meth (.path [n!"self_node"]) n!"get_children" .nil) n!"len" .nil) (.meth (.meth (.path [n!"other_node"]) n!"get_children"
      .nil) n!"len" .nil)) (.block (.exprS (.ret (.bool false))
    .nil)) (.tuple .nil))
    (.letS (.var n!"self_child_key") (.index (.meth (.path [n!"self_node"]) n!"get_children" .nil) (.path [n!"index"]))
    (.letS (.var n!"other_child_key") (.index (.meth (.path [n!"other_node"]) n!"get_children" .nil) (.path [n!"index"]))
    (.tail (.ite (.not (.meth (.path [n!"self"]) n!"partial_eq_kernel" (.cons (.path [n!"other"]) (.cons (.path [n!"self_child_key"]) (.cons
      (.path [n!"other_child_key"]) .nil))))) (.block (.exprS (.ret (.bool false))
    .nil)) (.tuple .nil))))))))
    (.tail (.bool true)))) (.block (.tail (.bool false))))))))⟩

/-- parser/src/publisher.rs:42 -/
def BasicPublisher.clear_node_of_children : Fn :=
  ⟨(some n!"BasicPublisher"), n!"clear_node_of_children", .refMut, [(n!"node", false)], none⟩

/-- parser/src/publisher.rs:46 -/
def BasicPublisher.new : Fn :=
  ⟨(some n!"BasicPublisher"), n!"new", .none, [(n!"size_of_source", false), (n!"number_of_rules", false)], none⟩

/-- parser/src/publisher.rs:58 -/
def BasicPublisher.clear_tree : Fn :=
  ⟨(some n!"BasicPublisher"), n!"clear_tree", .refMut, [], some (.block (.exprS (.meth (.field (.path [n!"self"]) n!"nodes") n!"clear" .nil)
    .nil))⟩

/-- parser/src/publisher.rs:62 -/
def BasicPublisher.add_node : Fn :=
  ⟨(some n!"BasicPublisher"), n!"add_node", .refMut, [(n!"rule", false), (n!"start_position", false), (n!"end_position", false),
      (n!"result", false)], some (.block (.letS (.var n!"len") (.meth (.field (.path [n!"self"]) n!"nodes") n!"len" .nil)
    (.letS (.var n!"key") (.call [n!"Key"] (.cons (.meth (.meth (.path [n!"len"]) n!"try_into" .nil) n!"unwrap" .nil) .nil))
    (.letS (.var n!"node") (.struct n!"Node" (.cons n!"index" (.path [n!"key"]) (.cons n!"rule" (.path [n!"rule"]) (.cons n!"start_position"
      (.path [n!"start_position"]) (.cons n!"end_position" (.path [n!"end_position"]) (.cons n!"result" (.path [n!"result"]) (.cons
      n!"children" (.call [n!"Vec", n!"new"] .nil) .nil)))))))
    (.exprS (.meth (.field (.path [n!"self"]) n!"nodes") n!"push" (.cons (.path [n!"node"]) .nil))
    (.tail (.path [n!"key"])))))))⟩

/-- parser/src/publisher.rs:83 -/
def BasicPublisher.connect : Fn :=
  ⟨(some n!"BasicPublisher"), n!"connect", .refMut, [(n!"parent_index", false), (n!"child_index", false)], none⟩

/-- parser/src/publisher.rs:92 -/
def BasicPublisher.connect_front : Fn :=
  ⟨(some n!"BasicPublisher"), n!"connect_front", .refMut, [(n!"parent_index", false), (n!"child_index", false)], none⟩

/-- parser/src/publisher.rs:107 -/
def BasicPublisher.connect_if_not_connected : Fn :=
  ⟨(some n!"BasicPublisher"), n!"connect_if_not_connected", .refMut, [(n!"parent_index", false), (n!"child_index", false)], none⟩

/-- parser/src/publisher.rs:116 -/
def BasicPublisher.disconnect : Fn :=
  ⟨(some n!"BasicPublisher"), n!"disconnect", .refMut, [(n!"parent_index", false), (n!"child_index", false)], none⟩

/-- parser/src/publisher.rs:132 -/
def BasicPublisher.set_node_start_position : Fn :=
  ⟨(some n!"BasicPublisher"), n!"set_node_start_position", .refMut, [(n!"index", false), (n!"start_position", false)], some (.block (.tail
      (.assign (.field (.index (.field (.path [n!"self"]) n!"nodes") (.call [n!"usize", n!"from"] (.cons (.path [n!"index"]) .nil)))
      n!"start_position") (.path [n!"start_position"]))))⟩

/-- parser/src/publisher.rs:135 -/
def BasicPublisher.set_node_end_position : Fn :=
  ⟨(some n!"BasicPublisher"), n!"set_node_end_position", .refMut, [(n!"index", false), (n!"end_position", false)], some (.block (.tail
      (.assign (.field (.index (.field (.path [n!"self"]) n!"nodes") (.call [n!"usize", n!"from"] (.cons (.path [n!"index"]) .nil)))
      n!"end_position") (.path [n!"end_position"]))))⟩

/-- parser/src/publisher.rs:138 -/
def BasicPublisher.set_node_result : Fn :=
  ⟨(some n!"BasicPublisher"), n!"set_node_result", .refMut, [(n!"index", false), (n!"result", false)], some (.block (.tail (.assign (.field
      (.index (.field (.path [n!"self"]) n!"nodes") (.call [n!"usize", n!"from"] (.cons (.path [n!"index"]) .nil))) n!"result") (.path
      [n!"result"]))))⟩

/-- parser/src/publisher.rs:142 -/
def BasicPublisher.print : Fn :=
  ⟨(some n!"BasicPublisher"), n!"print", .ref, [(n!"index", false), (n!"boolean", false)], some (.block (.letS (.var n!"indent") (.int 0)
    (.tail (.ite (.bin .and (.meth (.path [n!"boolean"]) n!"is_some" .nil) (.meth (.path [n!"boolean"]) n!"unwrap" .nil)) (.block (.exprS
      (.meth (.path [n!"self"]) n!"print_kernel_true" (.cons (.path [n!"index"]) (.cons (.path [n!"indent"]) .nil)))
    .nil)) (.ite (.bin .and (.meth (.path [n!"boolean"]) n!"is_some" .nil) (.not (.meth (.path [n!"boolean"]) n!"unwrap" .nil))) (.block
      (.exprS (.meth (.path [n!"self"]) n!"print_kernel_false" (.cons (.path [n!"index"]) (.cons (.path [n!"indent"]) .nil)))
    .nil)) (.block (.exprS (.meth (.path [n!"self"]) n!"print_kernel_all" (.cons (.path [n!"index"]) (.cons (.path [n!"indent"]) .nil)))
    .nil)))))))⟩

/-- parser/src/publisher.rs:153 -/
def BasicPublisher.clear_false : Fn :=
  ⟨(some n!"BasicPublisher"), n!"clear_false", .val, [], none⟩

/-- parser/src/publisher.rs:178 -/
def BasicPublisher.get_node : Fn :=
  ⟨(some n!"BasicPublisher"), n!"get_node", .ref, [(n!"index", false)], some (.block (.tail (.index (.field (.path [n!"self"]) n!"nodes")
      (.call [n!"usize", n!"from"] (.cons (.path [n!"index"]) .nil)))))⟩

/-- parser/src/publisher.rs:182 -/
def BasicPublisher.get_mut_node : Fn :=
  ⟨(some n!"BasicPublisher"), n!"get_mut_node", .refMut, [(n!"index", false)], none⟩

/-- parser/src/publisher.rs:186 -/
def BasicPublisher.clear_false_kernel : Fn :=
  ⟨(some n!"BasicPublisher"), n!"clear_false_kernel", .ref, [(n!"new_tree", true), (n!"parent_index", false), (n!"index", false)], some
      (.block (.letS (.var n!"node") (.meth (.path [n!"self"]) n!"get_node" (.cons (.path [n!"index"]) .nil))
    (.tail (.ite (.bin .and (.field (.path [n!"node"]) n!"result") (.bin .ne (.field (.path [n!"node"]) n!"start_position") (.field (.path
      [n!"node"]) n!"end_position"))) (.block (.letS (.var n!"child_index") (.meth (.path [n!"new_tree"]) n!"add_node" (.cons (.field (.path
      [n!"node"]) n!"rule") (.cons (.field (.path [n!"node"]) n!"start_position") (.cons (.field (.path [n!"node"]) n!"end_position") (.cons
      (.field (.path [n!"node"]) n!"result") .nil)))))
    (.exprS (.meth (.path [n!"new_tree"]) n!"connect" (.cons (.path [n!"parent_index"]) (.cons (.path [n!"child_index"]) .nil)))
    (.tail (.forIn (.var n!"i") (.field (.path [n!"node"]) n!"children") (.block (.exprS (.meth (.path [n!"self"]) n!"clear_false_kernel"
      (.cons (.path [n!"new_tree"]) (.cons (.path [n!"child_index"]) (.cons (.path [n!"i"]) .nil))))
    .nil))))))) (.tuple .nil)))))⟩

/-- parser/src/publisher.rs:202 -/
def BasicPublisher.capacity : Fn :=
  ⟨(some n!"BasicPublisher"), n!"capacity", .ref, [], some (.block (.tail (.meth (.field (.path [n!"self"]) n!"nodes") n!"capacity" .nil)))⟩

/-- parser/src/publisher.rs:207 -/
def BasicPublisher.len : Fn :=
  ⟨(some n!"BasicPublisher"), n!"len", .ref, [], some (.block (.tail (.meth (.field (.path [n!"self"]) n!"nodes") n!"len" .nil)))⟩

/-- parser/src/publisher.rs:211 -/
def BasicPublisher.print_kernel_true : Fn :=
  ⟨(some n!"BasicPublisher"), n!"print_kernel_true", .ref, [(n!"index", false), (n!"indent", false)], some (.block (.letS (.var n!"node")
      (.index (.field (.path [n!"self"]) n!"nodes") (.call [n!"usize", n!"from"] (.cons (.path [n!"index"]) .nil)))
    (.exprS (.ite (.not (.field (.path [n!"node"]) n!"result")) (.block (.exprS (.ret (.tuple .nil))
    .nil)) (.tuple .nil))
    (.exprS (.meth (.path [n!"node"]) n!"print" (.cons (.path [n!"indent"]) .nil))
    (.letS (.var n!"counter") (.int 0)
    (.tail (.loop (.block (.exprS (.ite (.bin .ge (.path [n!"counter"]) (.meth (.field (.path [n!"node"]) n!"children") n!"len" .nil))
      (.block (.exprS .brk
    .nil)) (.tuple .nil))
    (.letS (.var n!"child_index") (.index (.field (.path [n!"node"]) n!"children") (.path [n!"counter"]))
    (.exprS (.ite (.bin .eq (.path [n!"child_index"]) (.call [n!"Key"] (.cons (.int 0) .nil))) (.block (.exprS (.mac n!"println" .nil)
    (.exprS .brk
    .nil))) (.tuple .nil))
    (.exprS (.meth (.path [n!"self"]) n!"print_kernel_true" (.cons (.path [n!"child_index"]) (.cons (.bin .add (.path [n!"indent"]) (.int
      1)) .nil)))
    (.exprS (.addAssign (.path [n!"counter"]) (.int 1))
    .nil)))))))))))))⟩

/-- parser/src/publisher.rs:231 -/
def BasicPublisher.print_kernel_false : Fn :=
  ⟨(some n!"BasicPublisher"), n!"print_kernel_false", .ref, [(n!"index", false), (n!"indent", false)], some (.block (.letS (.var n!"node")
      (.index (.field (.path [n!"self"]) n!"nodes") (.call [n!"usize", n!"from"] (.cons (.path [n!"index"]) .nil)))
    (.exprS (.ite (.field (.path [n!"node"]) n!"result") (.block (.exprS (.ret (.tuple .nil))
    .nil)) (.tuple .nil))
    (.exprS (.mac n!"print" .nil)
    (.exprS (.meth (.path [n!"node"]) n!"print" (.cons (.path [n!"indent"]) .nil))
    (.exprS (.mac n!"print" .nil)
    (.letS (.var n!"counter") (.int 0)
    (.tail (.loop (.block (.exprS (.ite (.bin .ge (.path [n!"counter"]) (.meth (.field (.path [n!"node"]) n!"children") n!"len" .nil))
      (.block (.exprS .brk
    .nil)) (.tuple .nil))
    (.letS (.var n!"child_index") (.index (.field (.path [n!"node"]) n!"children") (.path [n!"counter"]))
    (.exprS (.ite (.bin .eq (.path [n!"child_index"]) (.call [n!"Key"] (.cons (.int 0) .nil))) (.block (.exprS (.mac n!"println" .nil)
    (.exprS .brk
    .nil))) (.tuple .nil))
    (.exprS (.meth (.path [n!"self"]) n!"print_kernel_false" (.cons (.path [n!"child_index"]) (.cons (.bin .add (.path [n!"indent"]) (.int
      1)) .nil)))
    (.exprS (.addAssign (.path [n!"counter"]) (.int 1))
    .nil)))))))))))))))⟩

/-- parser/src/publisher.rs:255 -/
def BasicPublisher.print_kernel_all : Fn :=
  ⟨(some n!"BasicPublisher"), n!"print_kernel_all", .ref, [(n!"index", false), (n!"indent", false)], some (.block (.letS (.var n!"node")
      (.index (.field (.path [n!"self"]) n!"nodes") (.call [n!"usize", n!"from"] (.cons (.path [n!"index"]) .nil)))
    (.exprS (.ite (.not (.field (.path [n!"node"]) n!"result")) (.block (.exprS (.mac n!"print" .nil)
    .nil)) (.tuple .nil))
    (.exprS (.meth (.path [n!"node"]) n!"print" (.cons (.path [n!"indent"]) .nil))
    (.exprS (.ite (.not (.field (.path [n!"node"]) n!"result")) (.block (.tail (.mac n!"print" .nil))) (.tuple .nil))
    (.letS (.var n!"counter") (.int 0)
    (.tail (.loop (.block (.exprS (.ite (.bin .ge (.path [n!"counter"]) (.meth (.field (.path [n!"node"]) n!"children") n!"len" .nil))
      (.block (.exprS .brk
    .nil)) (.tuple .nil))
    (.letS (.var n!"child_index") (.index (.field (.path [n!"node"]) n!"children") (.path [n!"counter"]))
    (.exprS (.ite (.bin .eq (.path [n!"child_index"]) (.call [n!"Key"] (.cons (.int 0) .nil))) (.block (.exprS (.mac n!"println" .nil)
    (.exprS .brk
    .nil))) (.tuple .nil))
    (.exprS (.meth (.path [n!"self"]) n!"print_kernel_all" (.cons (.path [n!"child_index"]) (.cons (.bin .add (.path [n!"indent"]) (.int 1))
      .nil)))
    (.exprS (.addAssign (.path [n!"counter"]) (.int 1))
    .nil))))))))))))))⟩

/-- parser/src/publisher.rs:295 -/
def Node.eq : Fn :=
  ⟨(some n!"Node"), n!"eq", .ref, [(n!"other", false)], some (.block (.tail (.ite (.bin .ne (.field (.path [n!"self"]) n!"rule") (.field
      (.path [n!"other"]) n!"rule")) (.block (.exprS (.mac n!"println" .nil)
    (.exprS (.meth (.path [n!"self"]) n!"print" (.cons (.int 0) .nil))
    (.exprS (.meth (.path [n!"other"]) n!"print" (.cons (.int 0) .nil))
    (.tail (.bool false)))))) (.ite (.bin .ne (.field (.path [n!"self"]) n!"start_position") (.field (.path [n!"other"])
      n!"start_position")) (.block (.exprS (.mac n!"println" .nil)
    (.exprS (.meth (.path [n!"self"]) n!"print" (.cons (.int 0) .nil))
    (.exprS (.meth (.path [n!"other"]) n!"print" (.cons (.int 0) .nil))
    (.tail (.bool false)))))) (.ite (.bin .ne (.field (.path [n!"self"]) n!"end_position") (.field (.path [n!"other"]) n!"end_position"))
      (.block (.exprS (.mac n!"println" .nil)
    (.exprS (.meth (.path [n!"self"]) n!"print" (.cons (.int 0) .nil))
    (.exprS (.meth (.path [n!"other"]) n!"print" (.cons (.int 0) .nil))
    (.tail (.bool false)))))) (.ite (.bin .ne (.field (.path [n!"self"]) n!"result") (.field (.path [n!"other"]) n!"result")) (.block
      (.exprS (.mac n!"println" .nil)
    (.exprS (.meth (.path [n!"self"]) n!"print" (.cons (.int 0) .nil))
    (.exprS (.meth (.path [n!"other"]) n!"print" (.cons (.int 0) .nil))
    (.tail (.bool false)))))) (.ite (.bin .ne (.meth (.field (.path [n!"self"]) n!"children") n!"len" .nil) (.meth (.field (.path
      [n!"other"]) n!"children") n!"len" .nil)) (.block (.exprS (.mac n!"println" .nil)
    (.exprS (.meth (.path [n!"self"]) n!"print" (.cons (.int 0) .nil))
    (.exprS (.meth (.path [n!"other"]) n!"print" (.cons (.int 0) .nil))
    (.tail (.bool false)))))) (.block (.tail (.bool true))))))))))⟩

/-- parser/src/publisher.rs:331 -/
def Node.new : Fn :=
  ⟨(some n!"Node"), n!"new", .none, [(n!"rule", false), (n!"start_position", false), (n!"end_position", false), (n!"result", false)], some
      (.block (.tail (.struct n!"Node" (.cons n!"index" (.call [n!"Key"] (.cons (.int 0) .nil)) (.cons n!"rule" (.path [n!"rule"]) (.cons
      n!"start_position" (.path [n!"start_position"]) (.cons n!"end_position" (.path [n!"end_position"]) (.cons n!"result" (.path
      [n!"result"]) (.cons n!"children" (.call [n!"Vec", n!"new"] .nil) .nil)))))))))⟩

/-- parser/src/publisher.rs:342 -/
def Node.get_string : Fn :=
  ⟨(some n!"Node"), n!"get_string", .ref, [(n!"source", false)], some (.block (.tail (.meth (.slice (.path [n!"source"]) (.cast (.field
      (.path [n!"self"]) n!"start_position") n!"usize") (.cast (.field (.path [n!"self"]) n!"end_position") n!"usize")) n!"to_string"
      .nil)))⟩

/-- parser/src/publisher.rs:346 -/
def Node.get_children : Fn :=
  ⟨(some n!"Node"), n!"get_children", .ref, [], some (.block (.tail (.field (.path [n!"self"]) n!"children")))⟩

/-- parser/src/publisher.rs:349 -/
def Node.set_children : Fn :=
  ⟨(some n!"Node"), n!"set_children", .refMut, [(n!"children", false)], some (.block (.exprS (.assign (.field (.path [n!"self"])
      n!"children") (.path [n!"children"]))
    .nil))⟩

/-- parser/src/publisher.rs:353 -/
def Node.print : Fn :=
  ⟨(some n!"Node"), n!"print", .ref, [(n!"indent", false)], some (.block (.tail (.mac n!"println" (.cons (.meth (.str (utf8Of "    "))
      n!"repeat" (.cons (.path [n!"indent"]) .nil)) (.cons (.field (.path [n!"self"]) n!"index") (.cons (.field (.path [n!"self"]) n!"rule")
      (.cons (.field (.path [n!"self"]) n!"start_position") (.cons (.field (.path [n!"self"]) n!"end_position") (.cons (.field (.path
      [n!"self"]) n!"result") (.cons (.meth (.field (.path [n!"self"]) n!"children") n!"len" .nil) .nil))))))))))⟩

/-- The items of parser/src/publisher.rs. -/
def publisherItems : List Item :=
  [.fn BasicPublisher.eq, .fn BasicPublisher.partial_eq_kernel, .fn BasicPublisher.clear_node_of_children, .fn BasicPublisher.new, .fn
   BasicPublisher.clear_tree, .fn BasicPublisher.add_node, .fn BasicPublisher.connect, .fn BasicPublisher.connect_front, .fn
   BasicPublisher.connect_if_not_connected, .fn BasicPublisher.disconnect, .fn BasicPublisher.set_node_start_position, .fn
   BasicPublisher.set_node_end_position, .fn BasicPublisher.set_node_result, .fn BasicPublisher.print, .fn BasicPublisher.clear_false, .fn
   BasicPublisher.get_node, .fn BasicPublisher.get_mut_node, .fn BasicPublisher.clear_false_kernel, .fn BasicPublisher.capacity, .fn
   BasicPublisher.len, .fn BasicPublisher.print_kernel_true, .fn BasicPublisher.print_kernel_false, .fn BasicPublisher.print_kernel_all, .fn
   Node.eq, .fn Node.new, .fn Node.get_string, .fn Node.get_children, .fn Node.set_children, .fn Node.print]

/-- generator/src/binary_wo.rs:35 -/
def BinaryTreeWO.new : Fn :=
  ⟨(some n!"BinaryTreeWO"), n!"new", .none, [], some (.block (.letS (.var n!"tree") (.struct n!"BinaryTreeWO" (.cons n!"nodes" (.call
      [n!"Vec", n!"new"] .nil) .nil))
    (.exprS (.meth (.path [n!"tree"]) n!"push" (.cons (.path [n!"Reference", n!"Null"]) (.cons (.path [n!"None"]) (.cons (.path [n!"None"])
      .nil))))
    (.tail (.path [n!"tree"])))))⟩

/-- generator/src/binary_wo.rs:43 -/
def BinaryTreeWO.push : Fn :=
  ⟨(some n!"BinaryTreeWO"), n!"push", .refMut, [(n!"reference", false), (n!"lhs", false), (n!"rhs", false)], some (.block (.letS (.var
      n!"node") (.struct n!"BinaryNode" (.cons n!"reference" (.path [n!"reference"]) (.cons n!"lhs" (.path [n!"lhs"]) (.cons n!"rhs" (.path
      [n!"rhs"]) .nil))))
    (.letS (.var n!"key") (.call [n!"Key"] (.cons (.cast (.meth (.field (.path [n!"self"]) n!"nodes") n!"len" .nil) n!"u32") .nil))
    (.exprS (.meth (.field (.path [n!"self"]) n!"nodes") n!"push" (.cons (.path [n!"node"]) .nil))
    (.tail (.path [n!"key"]))))))⟩

/-- generator/src/binary_wo.rs:55 -/
def BinaryTreeWO.print : Fn :=
  ⟨(some n!"BinaryTreeWO"), n!"print", .ref, [(n!"index", false)], some (.block (.tail (.meth (.path [n!"self"]) n!"print_kernel" (.cons
      (.path [n!"index"]) (.cons (.int 0) .nil)))))⟩

/-- generator/src/binary_wo.rs:59 -/
def BinaryTreeWO.print_kernel : Fn :=
  ⟨(some n!"BinaryTreeWO"), n!"print_kernel", .ref, [(n!"index", false), (n!"indent", false)], some (.block (.letS (.var n!"node") (.index
      (.field (.path [n!"self"]) n!"nodes") (.call [n!"usize", n!"from"] (.cons (.path [n!"index"]) .nil)))
    (.exprS (.mac n!"println" (.cons (.meth (.str (utf8Of "    ")) n!"repeat" (.cons (.path [n!"indent"]) .nil)) (.cons (.path [n!"index"])
      (.cons (.field (.path [n!"node"]) n!"reference") (.cons (.field (.path [n!"node"]) n!"lhs") (.cons (.field (.path [n!"node"]) n!"rhs")
      .nil))))))
    (.letS (.var n!"child_index") (.field (.path [n!"node"]) n!"lhs")
    (.exprS (.mtch (.path [n!"child_index"]) (.cons (.some n!"child_index") (.block (.exprS (.meth (.path [n!"self"]) n!"print_kernel"
      (.cons (.path [n!"child_index"]) (.cons (.bin .add (.path [n!"indent"]) (.int 1)) .nil)))
    .nil)) (.cons .wild (.tuple .nil) .nil)))
    (.letS (.var n!"child_index") (.field (.path [n!"node"]) n!"rhs")
    (.tail (.mtch (.path [n!"child_index"]) (.cons (.some n!"child_index") (.block (.exprS (.meth (.path [n!"self"]) n!"print_kernel" (.cons
      (.path [n!"child_index"]) (.cons (.bin .add (.path [n!"indent"]) (.int 1)) .nil)))
    .nil)) (.cons .wild (.tuple .nil) .nil))))))))))⟩

/-- generator/src/binary_wo.rs:79 -/
def BinaryTreeWO.to_string : Fn :=
  ⟨(some n!"BinaryTreeWO"), n!"to_string", .ref, [(n!"index", false)], some (.block (.letS (.var n!"stack") (.call [n!"Vec", n!"new"] .nil)
    (.exprS (.meth (.path [n!"self"]) n!"to_string_kernel" (.cons (.path [n!"stack"]) (.cons (.path [n!"index"]) .nil)))
    (.tail (.path [n!"stack"])))))⟩

/-- generator/src/binary_wo.rs:85 -/
def BinaryTreeWO.match_ref : Fn :=
  ⟨(some n!"BinaryTreeWO"), n!"match_ref", .ref, [(n!"stack", true), (n!"index", false)], some (.block (.letS (.var n!"node") (.index
      (.field (.path [n!"self"]) n!"nodes") (.call [n!"usize", n!"from"] (.cons (.path [n!"index"]) .nil)))
    (.tail (.mtch (.field (.path [n!"node"]) n!"reference") (.cons (.variants [(n!"Reference", n!"AndPredicate")]) (.meth (.path [n!"self"])
      n!"and_predicate" (.cons (.path [n!"stack"]) (.cons (.path [n!"index"]) .nil))) (.cons (.variants [(n!"Reference", n!"NotPredicate")])
      (.meth (.path [n!"self"]) n!"not_predicate" (.cons (.path [n!"stack"]) (.cons (.path [n!"index"]) .nil))) (.cons (.variants
      [(n!"Reference", n!"Optional")]) (.meth (.path [n!"self"]) n!"optional" (.cons (.path [n!"stack"]) (.cons (.path [n!"index"]) .nil)))
      (.cons (.variants [(n!"Reference", n!"OneOrMore")]) (.meth (.path [n!"self"]) n!"one_or_more" (.cons (.path [n!"stack"]) (.cons (.path
      [n!"index"]) .nil))) (.cons (.variants [(n!"Reference", n!"ZeroOrMore")]) (.meth (.path [n!"self"]) n!"zero_or_more" (.cons (.path
      [n!"stack"]) (.cons (.path [n!"index"]) .nil))) (.cons (.variants [(n!"Reference", n!"Subexpression")]) (.meth (.path [n!"self"])
      n!"subexpression" (.cons (.path [n!"stack"]) (.cons (.path [n!"index"]) .nil))) (.cons (.variants [(n!"Reference",
      n!"OrderedChoice")]) (.meth (.path [n!"self"]) n!"ordered_choice" (.cons (.path [n!"stack"]) (.cons (.path [n!"index"]) .nil))) (.cons
      (.variants [(n!"Reference", n!"Sequence")]) (.meth (.path [n!"self"]) n!"sequence" (.cons (.path [n!"stack"]) (.cons (.path
      [n!"index"]) .nil))) (.cons (.data n!"Reference" n!"Terminal" [n!"_"]) (.meth (.path [n!"self"]) n!"terminal" (.cons (.path
      [n!"stack"]) (.cons (.path [n!"index"]) .nil))) (.cons (.data n!"Reference" n!"VarName" [n!"_"]) (.meth (.path [n!"self"])
      n!"var_name" (.cons (.path [n!"stack"]) (.cons (.path [n!"index"]) .nil))) (.cons (.data n!"Reference" n!"OrderedChoiceMatchRange"
      [n!"_", n!"_"]) (.block (.tail (.meth (.path [n!"self"]) n!"ordered_choice_match_range" (.cons (.path [n!"stack"]) (.cons (.path
      [n!"index"]) .nil))))) (.cons (.data n!"Reference" n!"StringTerminal" [n!"_"]) (.meth (.path [n!"self"]) n!"string_terminal" (.cons
      (.path [n!"stack"]) (.cons (.path [n!"index"]) .nil))) (.cons (.data n!"Reference" n!"StringTerminalAsciiOpt" [n!"_"]) (.meth (.path
      [n!"self"]) n!"string_terminal_ascii_opt" (.cons (.path [n!"stack"]) (.cons (.path [n!"index"]) .nil))) (.cons (.data n!"Reference"
      n!"InlinedRule" [n!"_"]) (.meth (.path [n!"self"]) n!"inlined_rule" (.cons (.path [n!"stack"]) (.cons (.path [n!"index"]) .nil)))
      (.cons (.dataAny n!"Reference" n!"LeftRecursiveRule") (.meth (.path [n!"self"]) n!"left_recursive_rule" (.cons (.path [n!"stack"])
      (.cons (.path [n!"index"]) .nil))) (.cons (.data n!"Reference" n!"HookedCall" [n!"_"]) (.meth (.path [n!"self"]) n!"hooked_call"
      (.cons (.path [n!"stack"]) (.cons (.path [n!"index"]) .nil))) (.cons (.variants [(n!"Reference", n!"Exec"), (n!"Reference",
      n!"Null")]) (.block (.tail (.mac n!"panic" .nil))) .nil)))))))))))))))))))))⟩

/-- generator/src/binary_wo.rs:114 -/
def BinaryTreeWO.to_string_kernel : Fn :=
  ⟨(some n!"BinaryTreeWO"), n!"to_string_kernel", .ref, [(n!"stack", true), (n!"index", false)], some (.block (.letS (.var n!"node") (.index
      (.field (.path [n!"self"]) n!"nodes") (.call [n!"usize", n!"from"] (.cons (.path [n!"index"]) .nil)))
    (.tail (.mtch (.field (.path [n!"node"]) n!"reference") (.cons (.variants [(n!"Reference", n!"Exec")]) (.block (.letS (.var
      n!"child_index") (.meth (.field (.path [n!"node"]) n!"lhs") n!"expect" (.cons (.str (utf8Of "Should always have child")) .nil))
    (.letS (.var n!"key") (.meth (.path [n!"self"]) n!"match_ref" (.cons (.path [n!"stack"]) (.cons (.path [n!"child_index"]) .nil)))
    (.exprS (.meth (.path [n!"stack"]) n!"push" (.cons (.fmt [.lit (utf8Of "closure_"), .disp, .lit (utf8Of "(parent, source, position)")]
      (.cons (.field (.path [n!"key"]) 0) .nil)) .nil))
    (.tail (.path [n!"key"])))))) (.cons .wild (.mac n!"panic" .nil) .nil))))))⟩

/-- generator/src/binary_wo.rs:129 -/
def BinaryTreeWO.string_terminal : Fn :=
  ⟨(some n!"BinaryTreeWO"), n!"string_terminal", .ref, [(n!"stack", true), (n!"index", false)], some (.block (.letS (.var n!"node") (.index
      (.field (.path [n!"self"]) n!"nodes") (.call [n!"usize", n!"from"] (.cons (.path [n!"index"]) .nil)))
    (.tail (.mtch (.field (.path [n!"node"]) n!"reference") (.cons (.data n!"Reference" n!"StringTerminal" [n!"chars"]) (.block (.exprS
      (.meth (.path [n!"stack"]) n!"push" (.cons (.fmt [.lit (utf8Of "let closure_"), .dbg, .lit (utf8Of " = _string_terminal(&"), .dbg,
      .lit (utf8Of ");")] (.cons (.field (.path [n!"index"]) 0) (.cons (.path [n!"chars"]) .nil))) .nil))
    (.tail (.path [n!"index"])))) (.cons .wild (.block (.tail (.mac n!"panic" .nil))) .nil))))))⟩

/-- generator/src/binary_wo.rs:145 -/
def BinaryTreeWO.string_terminal_ascii_opt : Fn :=
  ⟨(some n!"BinaryTreeWO"), n!"string_terminal_ascii_opt", .ref, [(n!"stack", true), (n!"index", false)], some (.block (.letS (.var
      n!"node") (.index (.field (.path [n!"self"]) n!"nodes") (.call [n!"usize", n!"from"] (.cons (.path [n!"index"]) .nil)))
    (.tail (.mtch (.field (.path [n!"node"]) n!"reference") (.cons (.data n!"Reference" n!"StringTerminalAsciiOpt" [n!"chars"]) (.block
      (.letS (.var n!"r") (.fmt [.lit (utf8Of "let closure_"), .dbg, .lit (utf8Of " = _string_terminal_opt_ascii(b\"")] (.cons (.field
      (.path [n!"index"]) 0) .nil))
    (.exprS (.forIn (.var n!"i") (.path [n!"chars"]) (.block (.tail (.meth (.path [n!"r"]) n!"push_str" (.cons (.fmt [.lit (utf8Of ""),
      .dispVar n!"i", .lit (utf8Of "")] .nil) .nil)))))
    (.exprS (.meth (.path [n!"r"]) n!"push_str" (.cons (.str (utf8Of "\");")) .nil))
    (.exprS (.meth (.path [n!"stack"]) n!"push" (.cons (.path [n!"r"]) .nil))
    (.tail (.path [n!"index"]))))))) (.cons .wild (.block (.tail (.mac n!"panic" .nil))) .nil))))))⟩

/-- generator/src/binary_wo.rs:167 -/
def BinaryTreeWO.ordered_choice_match_range : Fn :=
  ⟨(some n!"BinaryTreeWO"), n!"ordered_choice_match_range", .ref, [(n!"stack", true), (n!"index", false)], some (.block (.letS (.var
      n!"node") (.index (.field (.path [n!"self"]) n!"nodes") (.call [n!"usize", n!"from"] (.cons (.path [n!"index"]) .nil)))
    (.tail (.mtch (.field (.path [n!"node"]) n!"reference") (.cons (.data n!"Reference" n!"OrderedChoiceMatchRange" [n!"start", n!"end"])
      (.block (.exprS (.meth (.path [n!"stack"]) n!"push" (.cons (.fmt [.lit (utf8Of "let closure_"), .dbg, .lit
      (utf8Of " = _ordered_choice_match_range("), .disp, .lit (utf8Of ", "), .disp, .lit (utf8Of ");")] (.cons (.field (.path [n!"index"])
      0) (.cons (.path [n!"start"]) (.cons (.path [n!"end"]) .nil)))) .nil))
    (.tail (.path [n!"index"])))) (.cons .wild (.block (.tail (.mac n!"panic" .nil))) .nil))))))⟩

/-- generator/src/binary_wo.rs:183 -/
def BinaryTreeWO.and_predicate : Fn :=
  ⟨(some n!"BinaryTreeWO"), n!"and_predicate", .ref, [(n!"stack", true), (n!"index", false)], some (.block (.tail (.block (.letS (.var
      n!"node") (.index (.field (.path [n!"self"]) n!"nodes") (.call [n!"usize", n!"from"] (.cons (.path [n!"index"]) .nil)))
    (.letS (.var n!"key1") (.meth (.path [n!"self"]) n!"match_ref" (.cons (.path [n!"stack"]) (.cons (.meth (.field (.path [n!"node"])
      n!"lhs") n!"expect" (.cons (.str (utf8Of "Should always have a left node")) .nil)) .nil)))
    (.tail (.mtch (.field (.path [n!"node"]) n!"reference") (.cons (.variants [(n!"Reference", n!"AndPredicate")]) (.block (.exprS (.meth
      (.path [n!"stack"]) n!"push" (.cons (.fmt [.lit (utf8Of "let closure_"), .dbg, .lit (utf8Of " = _and_predicate(&closure_"), .dbg, .lit
      (utf8Of ");")] (.cons (.field (.path [n!"index"]) 0) (.cons (.field (.path [n!"key1"]) 0) .nil))) .nil))
    (.tail (.path [n!"index"])))) (.cons .wild (.block (.tail (.mac n!"panic" .nil))) .nil)))))))))⟩

/-- generator/src/binary_wo.rs:201 -/
def BinaryTreeWO.not_predicate : Fn :=
  ⟨(some n!"BinaryTreeWO"), n!"not_predicate", .ref, [(n!"stack", true), (n!"index", false)], some (.block (.letS (.var n!"node") (.index
      (.field (.path [n!"self"]) n!"nodes") (.call [n!"usize", n!"from"] (.cons (.path [n!"index"]) .nil)))
    (.letS (.var n!"key1") (.meth (.path [n!"self"]) n!"match_ref" (.cons (.path [n!"stack"]) (.cons (.meth (.field (.path [n!"node"])
      n!"lhs") n!"expect" (.cons (.str (utf8Of "Should always have a left node")) .nil)) .nil)))
    (.tail (.mtch (.field (.path [n!"node"]) n!"reference") (.cons (.variants [(n!"Reference", n!"NotPredicate")]) (.block (.exprS (.meth
      (.path [n!"stack"]) n!"push" (.cons (.fmt [.lit (utf8Of "let closure_"), .dbg, .lit (utf8Of " = _not_predicate(&closure_"), .dbg, .lit
      (utf8Of ");")] (.cons (.field (.path [n!"index"]) 0) (.cons (.field (.path [n!"key1"]) 0) .nil))) .nil))
    (.tail (.path [n!"index"])))) (.cons .wild (.block (.tail (.mac n!"panic" .nil))) .nil)))))))⟩

/-- generator/src/binary_wo.rs:218 -/
def BinaryTreeWO.one_or_more : Fn :=
  ⟨(some n!"BinaryTreeWO"), n!"one_or_more", .ref, [(n!"stack", true), (n!"index", false)], some (.block (.letS (.var n!"node") (.index
      (.field (.path [n!"self"]) n!"nodes") (.call [n!"usize", n!"from"] (.cons (.path [n!"index"]) .nil)))
    (.letS (.var n!"key1") (.meth (.path [n!"self"]) n!"match_ref" (.cons (.path [n!"stack"]) (.cons (.meth (.field (.path [n!"node"])
      n!"lhs") n!"expect" (.cons (.str (utf8Of "Should always have a left node")) .nil)) .nil)))
    (.tail (.mtch (.field (.path [n!"node"]) n!"reference") (.cons (.variants [(n!"Reference", n!"OneOrMore")]) (.block (.exprS (.meth
      (.path [n!"stack"]) n!"push" (.cons (.fmt [.lit (utf8Of "let closure_"), .dbg, .lit (utf8Of " = _one_or_more(&closure_"), .dbg, .lit
      (utf8Of ");")] (.cons (.field (.path [n!"index"]) 0) (.cons (.field (.path [n!"key1"]) 0) .nil))) .nil))
    (.tail (.path [n!"index"])))) (.cons .wild (.block (.tail (.mac n!"panic" .nil))) .nil)))))))⟩

/-- generator/src/binary_wo.rs:234 -/
def BinaryTreeWO.zero_or_more : Fn :=
  ⟨(some n!"BinaryTreeWO"), n!"zero_or_more", .ref, [(n!"stack", true), (n!"index", false)], some (.block (.letS (.var n!"node") (.index
      (.field (.path [n!"self"]) n!"nodes") (.call [n!"usize", n!"from"] (.cons (.path [n!"index"]) .nil)))
    (.letS (.var n!"key1") (.meth (.path [n!"self"]) n!"match_ref" (.cons (.path [n!"stack"]) (.cons (.meth (.field (.path [n!"node"])
      n!"lhs") n!"expect" (.cons (.str (utf8Of "Should always have a left node")) .nil)) .nil)))
    (.tail (.mtch (.field (.path [n!"node"]) n!"reference") (.cons (.variants [(n!"Reference", n!"ZeroOrMore")]) (.block (.exprS (.meth
      (.path [n!"stack"]) n!"push" (.cons (.fmt [.lit (utf8Of "let closure_"), .dbg, .lit (utf8Of " = _zero_or_more(&closure_"), .dbg, .lit
      (utf8Of ");")] (.cons (.field (.path [n!"index"]) 0) (.cons (.field (.path [n!"key1"]) 0) .nil))) .nil))
    (.tail (.path [n!"index"])))) (.cons .wild (.block (.tail (.mac n!"panic" .nil))) .nil)))))))⟩

/-- generator/src/binary_wo.rs:251 -/
def BinaryTreeWO.hooked_call : Fn :=
  ⟨(some n!"BinaryTreeWO"), n!"hooked_call", .ref, [(n!"stack", true), (n!"index", false)], some (.block (.letS (.var n!"node") (.index
      (.field (.path [n!"self"]) n!"nodes") (.call [n!"usize", n!"from"] (.cons (.path [n!"index"]) .nil)))
    (.letS (.var n!"key1") (.meth (.path [n!"self"]) n!"match_ref" (.cons (.path [n!"stack"]) (.cons (.meth (.field (.path [n!"node"])
      n!"lhs") n!"expect" (.cons (.str (utf8Of "Should always have a left node")) .nil)) .nil)))
    (.tail (.mtch (.field (.path [n!"node"]) n!"reference") (.cons (.data n!"Reference" n!"HookedCall" [n!"var_name"]) (.block (.exprS
      (.meth (.path [n!"stack"]) n!"push" (.cons (.fmt [.lit (utf8Of "let closure_"), .dbg, .lit (utf8Of " = "), .dispVar n!"var_name", .lit
      (utf8Of "(user_state, parent, context, source, position, &closure_"), .dbg, .lit (utf8Of ");")] (.cons (.field (.path [n!"index"]) 0)
      (.cons (.field (.path [n!"key1"]) 0) .nil))) .nil))
    (.tail (.path [n!"index"])))) (.cons .wild (.block (.tail (.mac n!"panic" .nil))) .nil)))))))⟩

/-- generator/src/binary_wo.rs:267 -/
def BinaryTreeWO.subexpression : Fn :=
  ⟨(some n!"BinaryTreeWO"), n!"subexpression", .ref, [(n!"stack", true), (n!"index", false)], some (.block (.letS (.var n!"node") (.index
      (.field (.path [n!"self"]) n!"nodes") (.call [n!"usize", n!"from"] (.cons (.path [n!"index"]) .nil)))
    (.letS (.var n!"key1") (.meth (.path [n!"self"]) n!"match_ref" (.cons (.path [n!"stack"]) (.cons (.meth (.field (.path [n!"node"])
      n!"lhs") n!"expect" (.cons (.str (utf8Of "Should always have a left node")) .nil)) .nil)))
    (.tail (.mtch (.field (.path [n!"node"]) n!"reference") (.cons (.variants [(n!"Reference", n!"Subexpression")]) (.block (.exprS (.meth
      (.path [n!"stack"]) n!"push" (.cons (.fmt [.lit (utf8Of "let closure_"), .dbg, .lit (utf8Of " = _subexpression(&closure_"), .dbg, .lit
      (utf8Of ");")] (.cons (.field (.path [n!"index"]) 0) (.cons (.field (.path [n!"key1"]) 0) .nil))) .nil))
    (.tail (.path [n!"index"])))) (.cons .wild (.block (.tail (.mac n!"panic" .nil))) .nil)))))))⟩

/-- generator/src/binary_wo.rs:283 -/
def BinaryTreeWO.optional : Fn :=
  ⟨(some n!"BinaryTreeWO"), n!"optional", .ref, [(n!"stack", true), (n!"index", false)], some (.block (.letS (.var n!"node") (.index (.field
      (.path [n!"self"]) n!"nodes") (.call [n!"usize", n!"from"] (.cons (.path [n!"index"]) .nil)))
    (.letS (.var n!"key1") (.meth (.path [n!"self"]) n!"match_ref" (.cons (.path [n!"stack"]) (.cons (.meth (.field (.path [n!"node"])
      n!"lhs") n!"expect" (.cons (.str (utf8Of "Should always have a left node")) .nil)) .nil)))
    (.tail (.mtch (.field (.path [n!"node"]) n!"reference") (.cons (.variants [(n!"Reference", n!"Optional")]) (.block (.exprS (.meth (.path
      [n!"stack"]) n!"push" (.cons (.fmt [.lit (utf8Of "let closure_"), .dbg, .lit (utf8Of " = _optional(&closure_"), .dbg, .lit
      (utf8Of ");")] (.cons (.field (.path [n!"index"]) 0) (.cons (.field (.path [n!"key1"]) 0) .nil))) .nil))
    (.tail (.path [n!"index"])))) (.cons .wild (.block (.tail (.mac n!"panic" .nil))) .nil)))))))⟩

/-- generator/src/binary_wo.rs:300 -/
def BinaryTreeWO.ordered_choice : Fn :=
  ⟨(some n!"BinaryTreeWO"), n!"ordered_choice", .ref, [(n!"stack", true), (n!"index", false)], some (.block (.letS (.var n!"node") (.index
      (.field (.path [n!"self"]) n!"nodes") (.call [n!"usize", n!"from"] (.cons (.path [n!"index"]) .nil)))
    (.letS (.var n!"key1") (.meth (.path [n!"self"]) n!"match_ref" (.cons (.path [n!"stack"]) (.cons (.meth (.field (.path [n!"node"])
      n!"lhs") n!"expect" (.cons (.str (utf8Of "Should always have a left node")) .nil)) .nil)))
    (.letS (.var n!"key2") (.meth (.path [n!"self"]) n!"match_ref" (.cons (.path [n!"stack"]) (.cons (.meth (.field (.path [n!"node"])
      n!"rhs") n!"expect" (.cons (.str (utf8Of "Should always have a right node")) .nil)) .nil)))
    (.tail (.mtch (.field (.path [n!"node"]) n!"reference") (.cons (.variants [(n!"Reference", n!"OrderedChoice")]) (.block (.exprS (.meth
      (.path [n!"stack"]) n!"push" (.cons (.fmt [.lit (utf8Of "let closure_"), .dbg, .lit (utf8Of " = _ordered_choice(&closure_"), .dbg,
      .lit (utf8Of ", &closure_"), .dbg, .lit (utf8Of ");")] (.cons (.field (.path [n!"index"]) 0) (.cons (.field (.path [n!"key1"]) 0)
      (.cons (.field (.path [n!"key2"]) 0) .nil)))) .nil))
    (.tail (.path [n!"index"])))) (.cons .wild (.block (.tail (.mac n!"panic" .nil))) .nil))))))))⟩

/-- generator/src/binary_wo.rs:318 -/
def BinaryTreeWO.sequence : Fn :=
  ⟨(some n!"BinaryTreeWO"), n!"sequence", .ref, [(n!"stack", true), (n!"index", false)], some (.block (.letS (.var n!"node") (.index (.field
      (.path [n!"self"]) n!"nodes") (.call [n!"usize", n!"from"] (.cons (.path [n!"index"]) .nil)))
    (.letS (.var n!"key1") (.meth (.path [n!"self"]) n!"match_ref" (.cons (.path [n!"stack"]) (.cons (.meth (.field (.path [n!"node"])
      n!"lhs") n!"expect" (.cons (.str (utf8Of "Should always have a left node")) .nil)) .nil)))
    (.letS (.var n!"key2") (.meth (.path [n!"self"]) n!"match_ref" (.cons (.path [n!"stack"]) (.cons (.meth (.field (.path [n!"node"])
      n!"rhs") n!"expect" (.cons (.str (utf8Of "Should always have a right node")) .nil)) .nil)))
    (.tail (.mtch (.field (.path [n!"node"]) n!"reference") (.cons (.variants [(n!"Reference", n!"Sequence")]) (.block (.exprS (.meth (.path
      [n!"stack"]) n!"push" (.cons (.fmt [.lit (utf8Of "let closure_"), .dbg, .lit (utf8Of " = _sequence(&closure_"), .dbg, .lit
      (utf8Of ", &closure_"), .dbg, .lit (utf8Of ");")] (.cons (.field (.path [n!"index"]) 0) (.cons (.field (.path [n!"key1"]) 0) (.cons
      (.field (.path [n!"key2"]) 0) .nil)))) .nil))
    (.tail (.path [n!"index"])))) (.cons .wild (.block (.tail (.mac n!"panic" .nil))) .nil))))))))⟩

/-- generator/src/binary_wo.rs:335 -/
def BinaryTreeWO.terminal : Fn :=
  ⟨(some n!"BinaryTreeWO"), n!"terminal", .ref, [(n!"stack", true), (n!"index", false)], some (.block (.letS (.var n!"node") (.index (.field
      (.path [n!"self"]) n!"nodes") (.call [n!"usize", n!"from"] (.cons (.path [n!"index"]) .nil)))
    (.tail (.mtch (.field (.path [n!"node"]) n!"reference") (.cons (.data n!"Reference" n!"Terminal" [n!"content"]) (.block (.exprS (.meth
      (.path [n!"stack"]) n!"push" (.cons (.fmt [.lit (utf8Of "let closure_"), .dbg, .lit (utf8Of " = _terminal(b'"), .disp, .lit
      (utf8Of "');")] (.cons (.field (.path [n!"index"]) 0) (.cons (.path [n!"content"]) .nil))) .nil))
    (.tail (.path [n!"index"])))) (.cons .wild (.block (.tail (.mac n!"panic" .nil))) .nil))))))⟩

/-- generator/src/binary_wo.rs:350 -/
def BinaryTreeWO.var_name : Fn :=
  ⟨(some n!"BinaryTreeWO"), n!"var_name", .ref, [(n!"stack", true), (n!"index", false)], some (.block (.letS (.var n!"node") (.index (.field
      (.path [n!"self"]) n!"nodes") (.call [n!"usize", n!"from"] (.cons (.path [n!"index"]) .nil)))
    (.tail (.mtch (.field (.path [n!"node"]) n!"reference") (.cons (.data n!"Reference" n!"VarName" [n!"content"]) (.block (.letS (.var
      n!"rule_str") (.clo [n!"rule_name"] (.block (.letS (.var n!"start_char") (.meth (.meth (.meth (.path [n!"rule_name"]) n!"chars" .nil)
      n!"nth" (.cons (.int 0) .nil)) n!"expect" (.cons (.str (utf8Of "Should exist")) .nil))
    (.letS (.var n!"start_char") (.meth (.meth (.path [n!"start_char"]) n!"to_uppercase" .nil) n!"to_string" .nil)
    (.letS (.var n!"rule_name") (.bin .add (.path [n!"start_char"]) (.field (.meth (.meth (.path [n!"rule_name"]) n!"split_at_checked"
      (.cons (.int 1) .nil)) n!"unwrap" .nil) 1))
    (.tail (.path [n!"rule_name"])))))))
    (.letS (.var n!"contents") (.fmt [.lit (utf8Of "let closure_"), .dbg, .lit (utf8Of " = _var_name(user_state, Rules::"), .disp, .lit
      (utf8Of ", context, "), .disp, .lit (utf8Of ");")] (.cons (.field (.path [n!"index"]) 0) (.cons (.call [n!"rule_str"] (.cons (.meth
      (.path [n!"content"]) n!"to_string" .nil) .nil)) (.cons (.meth (.path [n!"content"]) n!"to_lowercase" .nil) .nil))))
    (.exprS (.meth (.path [n!"stack"]) n!"push" (.cons (.path [n!"contents"]) .nil))
    (.tail (.path [n!"index"])))))) (.cons .wild (.block (.tail (.mac n!"panic" .nil))) .nil))))))⟩

/-- generator/src/binary_wo.rs:375 -/
def BinaryTreeWO.left_recursive_rule : Fn :=
  ⟨(some n!"BinaryTreeWO"), n!"left_recursive_rule", .ref, [(n!"stack", true), (n!"index", false)], some (.block (.letS (.var n!"node")
      (.index (.field (.path [n!"self"]) n!"nodes") (.call [n!"usize", n!"from"] (.cons (.path [n!"index"]) .nil)))
    (.tail (.mtch (.field (.path [n!"node"]) n!"reference") (.cons (.data n!"Reference" n!"LeftRecursiveRule" [n!"content",
      n!"involved_set"]) (.block (.letU n!"contents_involved_set"
    (.exprS (.ite (.meth (.path [n!"involved_set"]) n!"is_empty" .nil) (.block (.exprS (.assign (.path [n!"contents_involved_set"]) (.meth
      (.str (utf8Of "let involved_set: Vec<Rules> = [].to_vec();")) n!"to_string" .nil))
    .nil)) (.block (.exprS (.assign (.path [n!"contents_involved_set"]) (.meth (.str (utf8Of "let involved_set: Vec<Rules> = ["))
      n!"to_string" .nil))
    (.exprS (.forIn (.var n!"rule") (.path [n!"involved_set"]) (.block (.letS (.var n!"rule_str") (.clo [n!"rule_name"] (.block (.letS (.var
      n!"start_char") (.meth (.meth (.meth (.path [n!"rule_name"]) n!"chars" .nil) n!"nth" (.cons (.int 0) .nil)) n!"expect" (.cons (.str
      (utf8Of "Should exist")) .nil))
    (.letS (.var n!"start_char") (.meth (.meth (.path [n!"start_char"]) n!"to_uppercase" .nil) n!"to_string" .nil)
    (.letS (.var n!"rule_name") (.bin .add (.path [n!"start_char"]) (.field (.meth (.meth (.path [n!"rule_name"]) n!"split_at_checked"
      (.cons (.int 1) .nil)) n!"unwrap" .nil) 1))
    (.tail (.path [n!"rule_name"])))))))
    (.exprS (.meth (.path [n!"contents_involved_set"]) n!"push_str" (.cons (.fmt [.lit (utf8Of "Rules::"), .disp, .lit (utf8Of ", ")] (.cons
      (.call [n!"rule_str"] (.cons (.meth (.path [n!"rule"]) n!"to_string" .nil) .nil)) .nil)) .nil))
    .nil))))
    (.exprS (.meth (.path [n!"contents_involved_set"]) n!"pop" .nil)
    (.exprS (.meth (.path [n!"contents_involved_set"]) n!"pop" .nil)
    (.exprS (.meth (.path [n!"contents_involved_set"]) n!"push_str" (.cons (.str (utf8Of "].to_vec();")) .nil))
    .nil)))))))
    (.exprS (.meth (.path [n!"stack"]) n!"push" (.cons (.path [n!"contents_involved_set"]) .nil))
    (.letS (.var n!"rule_str") (.clo [n!"rule_name"] (.block (.letS (.var n!"start_char") (.meth (.meth (.meth (.path [n!"rule_name"])
      n!"chars" .nil) n!"nth" (.cons (.int 0) .nil)) n!"expect" (.cons (.str (utf8Of "Should exist")) .nil))
    (.letS (.var n!"start_char") (.meth (.meth (.path [n!"start_char"]) n!"to_uppercase" .nil) n!"to_string" .nil)
    (.letS (.var n!"rule_name") (.bin .add (.path [n!"start_char"]) (.field (.meth (.meth (.path [n!"rule_name"]) n!"split_at_checked"
      (.cons (.int 1) .nil)) n!"unwrap" .nil) 1))
    (.tail (.path [n!"rule_name"])))))))
    (.letS (.var n!"contents") (.fmt [.lit (utf8Of "let closure_"), .dbg, .lit
      (utf8Of " = _var_name_indirect_left_recursion(user_state, &involved_set, Rules::"), .disp, .lit (utf8Of ", context, "), .disp, .lit
      (utf8Of ");")] (.cons (.field (.path [n!"index"]) 0) (.cons (.call [n!"rule_str"] (.cons (.meth (.path [n!"content"]) n!"to_string"
      .nil) .nil)) (.cons (.meth (.path [n!"content"]) n!"to_lowercase" .nil) .nil))))
    (.exprS (.meth (.path [n!"stack"]) n!"push" (.cons (.path [n!"contents"]) .nil))
    (.tail (.path [n!"index"]))))))))) (.cons .wild (.block (.tail (.mac n!"panic" .nil))) .nil))))))⟩

/-- generator/src/binary_wo.rs:425 -/
def BinaryTreeWO.inlined_rule : Fn :=
  ⟨(some n!"BinaryTreeWO"), n!"inlined_rule", .ref, [(n!"stack", true), (n!"index", false)], some (.block (.letS (.var n!"node") (.index
      (.field (.path [n!"self"]) n!"nodes") (.call [n!"usize", n!"from"] (.cons (.path [n!"index"]) .nil)))
    (.tail (.mtch (.field (.path [n!"node"]) n!"reference") (.cons (.data n!"Reference" n!"InlinedRule" [n!"content"]) (.block (.letS (.var
      n!"contents") (.fmt [.lit (utf8Of "let closure_"), .disp, .lit (utf8Of " = move |parent: Key, source: &Source, position: u32| "),
      .disp, .lit (utf8Of "(user_state, parent, context, source, position);")] (.cons (.field (.path [n!"index"]) 0) (.cons (.meth (.path
      [n!"content"]) n!"to_lowercase" .nil) .nil)))
    (.exprS (.meth (.path [n!"stack"]) n!"push" (.cons (.path [n!"contents"]) .nil))
    (.tail (.path [n!"index"]))))) (.cons .wild (.block (.tail (.mac n!"panic" .nil))) .nil))))))⟩

/-- The items of generator/src/binary_wo.rs. -/
def binaryWoItems : List Item :=
  [.enum n!"Reference" [n!"Terminal", n!"VarName", n!"OneOrMore", n!"ZeroOrMore", n!"Optional", n!"AndPredicate", n!"NotPredicate",
   n!"Subexpression", n!"OrderedChoice", n!"Sequence", n!"Exec", n!"Null", n!"OrderedChoiceMatchRange", n!"StringTerminal",
   n!"StringTerminalAsciiOpt", n!"InlinedRule", n!"LeftRecursiveRule", n!"HookedCall"], .fn BinaryTreeWO.new, .fn BinaryTreeWO.push, .fn
   BinaryTreeWO.print, .fn BinaryTreeWO.print_kernel, .fn BinaryTreeWO.to_string, .fn BinaryTreeWO.match_ref, .fn
   BinaryTreeWO.to_string_kernel, .fn BinaryTreeWO.string_terminal, .fn BinaryTreeWO.string_terminal_ascii_opt, .fn
   BinaryTreeWO.ordered_choice_match_range, .fn BinaryTreeWO.and_predicate, .fn BinaryTreeWO.not_predicate, .fn BinaryTreeWO.one_or_more,
   .fn BinaryTreeWO.zero_or_more, .fn BinaryTreeWO.hooked_call, .fn BinaryTreeWO.subexpression, .fn BinaryTreeWO.optional, .fn
   BinaryTreeWO.ordered_choice, .fn BinaryTreeWO.sequence, .fn BinaryTreeWO.terminal, .fn BinaryTreeWO.var_name, .fn
   BinaryTreeWO.left_recursive_rule, .fn BinaryTreeWO.inlined_rule]

/-- generator/src/symbol_table.rs:11 -/
def SymbolTable.new : Fn :=
  ⟨(some n!"SymbolTable"), n!"new", .none, [(n!"tree", false), (n!"source", false)], some (.block (.letS (.var n!"sym_table") (.struct
      n!"SymbolTable" (.cons n!"names" (.call [n!"Vec", n!"new"] .nil) (.cons n!"source" (.path [n!"source"]) (.cons n!"inlined_rules"
      (.call [n!"HashMap", n!"new"] .nil) .nil))))
    (.exprS (.mac n!"println" .nil)
    (.exprS (.meth (.path [n!"sym_table"]) n!"create_symbol_table_from_tree" (.cons (.path [n!"tree"]) .nil))
    (.exprS (.meth (.path [n!"sym_table"]) n!"run_duplication_check" .nil)
    (.tail (.path [n!"sym_table"])))))))⟩

/-- generator/src/symbol_table.rs:23 -/
def SymbolTable.get_names : Fn :=
  ⟨(some n!"SymbolTable"), n!"get_names", .ref, [], some (.block (.tail (.field (.path [n!"self"]) n!"names")))⟩

/-- generator/src/symbol_table.rs:27 -/
def SymbolTable.print : Fn :=
  ⟨(some n!"SymbolTable"), n!"print", .ref, [], some (.block (.tail (.forIn (.var n!"i") (.field (.path [n!"self"]) n!"names") (.block
      (.tail (.mac n!"println" .nil))))))⟩

/-- generator/src/symbol_table.rs:33 -/
def SymbolTable.push : Fn :=
  ⟨(some n!"SymbolTable"), n!"push", .refMut, [(n!"name", false)], some (.block (.exprS (.meth (.field (.path [n!"self"]) n!"names")
      n!"push" (.cons (.path [n!"name"]) .nil))
    .nil))⟩

/-- generator/src/symbol_table.rs:37 -/
def SymbolTable.check_symbol : Fn :=
  ⟨(some n!"SymbolTable"), n!"check_symbol", .ref, [(n!"symbol_name", false)], some (.block (.exprS (.forIn (.var n!"i") (.field (.path
      [n!"self"]) n!"names") (.block (.tail (.ite (.bin .eq (.path [n!"symbol_name"]) (.path [n!"i"])) (.block (.exprS (.ret (.bool true))
    .nil)) (.tuple .nil)))))
    (.tail (.bool false))))⟩

/-- generator/src/symbol_table.rs:46 -/
def SymbolTable.check_symbol_is_inline : Fn :=
  ⟨(some n!"SymbolTable"), n!"check_symbol_is_inline", .ref, [(n!"symbol_name", false)], some (.block (.letS (.var n!"rule") (.meth (.field
      (.path [n!"self"]) n!"inlined_rules") n!"get" (.cons (.path [n!"symbol_name"]) .nil))
    (.tail (.meth (.path [n!"rule"]) n!"is_some" .nil))))⟩

/-- generator/src/symbol_table.rs:51 -/
def SymbolTable.run_duplication_check : Fn :=
  ⟨(some n!"SymbolTable"), n!"run_duplication_check", .refMut, [], some (.block (.exprS (.meth (.field (.path [n!"self"]) n!"names")
      n!"sort" .nil)
    (.exprS (.meth (.field (.path [n!"self"]) n!"names") n!"dedup" .nil)
    .nil)))⟩

/-- generator/src/symbol_table.rs:57 -/
def SymbolTable.create_symbol_table_from_tree : Fn :=
  ⟨(some n!"SymbolTable"), n!"create_symbol_table_from_tree", .refMut, [(n!"tree", false)], some (.block (.letS (.var n!"node") (.meth
      (.path [n!"tree"]) n!"get_node" (.cons (.call [n!"Key"] (.cons (.int 0) .nil)) .nil))
    (.exprS (.ite (.bin .ne (.field (.path [n!"node"]) n!"rule") (.path [n!"Rules", n!"Grammar"])) (.block (.exprS (.mac n!"panic" .nil)
    .nil)) (.tuple .nil))
    (.letS (.var n!"counter") (.int 0)
    (.tail (.loop (.block (.exprS (.ite (.bin .ge (.path [n!"counter"]) (.meth (.meth (.path [n!"node"]) n!"get_children" .nil) n!"len"
      .nil)) (.block (.exprS .brk
    .nil)) (.tuple .nil))
    (.letS (.var n!"child_index") (.index (.meth (.path [n!"node"]) n!"get_children" .nil) (.path [n!"counter"]))
    (.exprS (.meth (.path [n!"self"]) n!"create_symbol_table_from_tree_kernel" (.cons (.path [n!"child_index"]) (.cons (.path [n!"tree"])
      (.cons (.path [n!"child_index"]) .nil))))
    (.exprS (.addAssign (.path [n!"counter"]) (.int 1))
    .nil)))))))))))⟩

/-- generator/src/symbol_table.rs:74 -/
def SymbolTable.print_inlined_rules : Fn :=
  ⟨(some n!"SymbolTable"), n!"print_inlined_rules", .ref, [], some (.block (.exprS (.mac n!"println" (.cons (.field (.path [n!"self"])
      n!"inlined_rules") .nil))
    .nil))⟩

/-- generator/src/symbol_table.rs:78 -/
def SymbolTable.check_semantic_instructions : Fn :=
  ⟨(some n!"SymbolTable"), n!"check_semantic_instructions", .refMut, [(n!"parent_index", false), (n!"name", false), (n!"tree", false),
      (n!"index", false)], some (.block (.letS (.var n!"_lhs") (.meth (.path [n!"tree"]) n!"get_node" (.cons (.path [n!"index"]) .nil))
    (.letS (.var n!"node") (.meth (.path [n!"tree"]) n!"get_node" (.cons (.path [n!"parent_index"]) .nil))
    (.tail (.forIn (.var n!"child") (.meth (.path [n!"node"]) n!"get_children" .nil) (.block (.letS (.var n!"child_node") (.meth (.path
      [n!"tree"]) n!"get_node" (.cons (.path [n!"child"]) .nil))
    (.tail (.ite (.bin .eq (.field (.path [n!"child_node"]) n!"rule") (.path [n!"Rules", n!"Semantic_Instructions"])) (.block (.letS (.var
      n!"sem_instr_key") (.index (.meth (.path [n!"child_node"]) n!"get_children" .nil) (.int 0))
    (.letS (.var n!"sem_instr_node") (.field (.meth (.path [n!"tree"]) n!"get_node" (.cons (.path [n!"sem_instr_key"]) .nil)) n!"rule")
    (.tail (.ite (.bin .eq (.path [n!"sem_instr_node"]) (.path [n!"Rules", n!"Inline"])) (.block (.exprS (.meth (.field (.path [n!"self"])
      n!"inlined_rules") n!"insert" (.cons (.meth (.path [n!"name"]) n!"to_string" .nil) (.cons (.meth (.str (utf8Of "")) n!"to_string"
      .nil) .nil)))
    .nil)) (.tuple .nil)))))) (.tuple .nil))))))))))⟩

/-- generator/src/symbol_table.rs:99 -/
def SymbolTable.create_symbol_table_from_tree_kernel : Fn :=
  ⟨(some n!"SymbolTable"), n!"create_symbol_table_from_tree_kernel", .refMut, [(n!"parent_index", false), (n!"tree", false), (n!"index",
      false)], some (.block (.letS (.var n!"node") (.meth (.path [n!"tree"]) n!"get_node" (.cons (.path [n!"index"]) .nil))
    (.letS (.var n!"counter") (.int 0)
    (.exprS (.ite (.bin .eq (.field (.path [n!"node"]) n!"rule") (.path [n!"Rules", n!"Var_Name_Decl"])) (.block (.exprS (.ite (.not (.field
      (.path [n!"node"]) n!"result")) (.block (.tail (.mac n!"panic" .nil))) (.tuple .nil))
    (.letS (.var n!"name") (.slice (.field (.path [n!"self"]) n!"source") (.cast (.bin .add (.field (.path [n!"node"]) n!"start_position")
      (.int 1)) n!"usize") (.cast (.bin .sub (.field (.path [n!"node"]) n!"end_position") (.int 1)) n!"usize"))
    (.exprS (.meth (.field (.path [n!"self"]) n!"names") n!"push" (.cons (.meth (.path [n!"name"]) n!"to_string" .nil) .nil))
    (.exprS (.meth (.path [n!"self"]) n!"check_semantic_instructions" (.cons (.path [n!"parent_index"]) (.cons (.path [n!"name"]) (.cons
      (.path [n!"tree"]) (.cons (.path [n!"index"]) .nil)))))
    .nil))))) (.tuple .nil))
    (.tail (.loop (.block (.exprS (.ite (.bin .ge (.path [n!"counter"]) (.meth (.meth (.path [n!"node"]) n!"get_children" .nil) n!"len"
      .nil)) (.block (.exprS .brk
    .nil)) (.tuple .nil))
    (.letS (.var n!"child_index") (.index (.meth (.path [n!"node"]) n!"get_children" .nil) (.path [n!"counter"]))
    (.exprS (.meth (.path [n!"self"]) n!"create_symbol_table_from_tree_kernel" (.cons (.path [n!"index"]) (.cons (.path [n!"tree"]) (.cons
      (.path [n!"child_index"]) .nil))))
    (.exprS (.addAssign (.path [n!"counter"]) (.int 1))
    .nil)))))))))))⟩

/-- The items of generator/src/symbol_table.rs. -/
def symbolTableItems : List Item :=
  [.fn SymbolTable.new, .fn SymbolTable.get_names, .fn SymbolTable.print, .fn SymbolTable.push, .fn SymbolTable.check_symbol, .fn
   SymbolTable.check_symbol_is_inline, .fn SymbolTable.run_duplication_check, .fn SymbolTable.create_symbol_table_from_tree, .fn
   SymbolTable.print_inlined_rules, .fn SymbolTable.check_semantic_instructions, .fn SymbolTable.create_symbol_table_from_tree_kernel]

/-- generator/src/cycle_detector.rs:7 -/
def LeftRecursionDetector.new : Fn :=
  ⟨(some n!"LeftRecursionDetector"), n!"new", .none, [(n!"tree", false), (n!"source", false)], some (.block (.tail (.struct
      n!"LeftRecursionDetector" (.cons n!"rule_call_tree" (.call [n!"RuleCallTree", n!"new"] (.cons (.path [n!"tree"]) (.cons (.path
      [n!"source"]) .nil))) .nil))))⟩

/-- generator/src/cycle_detector.rs:12 -/
def LeftRecursionDetector.get_left_recursion_rules : Fn :=
  ⟨(some n!"LeftRecursionDetector"), n!"get_left_recursion_rules", .ref, [], some (.block (.tail (.field (.field (.path [n!"self"])
      n!"rule_call_tree") n!"involved_sets")))⟩

/-- generator/src/cycle_detector.rs:31 -/
def RuleCallTree.new : Fn :=
  ⟨(some n!"RuleCallTree"), n!"new", .none, [(n!"tree", false), (n!"source", false)], some (.block (.letS (.var n!"node") (.meth (.path
      [n!"tree"]) n!"get_node" (.cons (.call [n!"Key"] (.cons (.int 0) .nil)) .nil))
    (.letS (.var n!"rc_tree") (.struct n!"RuleCallTree" (.cons n!"rules_keys" (.call [n!"HashMap", n!"new"] .nil) (.cons n!"rules_rhs_keys"
      (.call [n!"HashMap", n!"new"] .nil) (.cons n!"rules_referenced_by_rule" (.call [n!"HashMap", n!"new"] .nil) (.cons
      n!"is_rule_left_recursive" (.call [n!"HashMap", n!"new"] .nil) (.cons n!"rules_left_most_rule_refs" (.call [n!"HashMap", n!"new"]
      .nil) (.cons n!"involved_sets" (.call [n!"HashMap", n!"new"] .nil) .nil)))))))
    (.exprS (.meth (.path [n!"rc_tree"]) n!"walk_node_children" (.cons (.path [n!"tree"]) (.cons (.path [n!"source"]) (.cons (.path
      [n!"node"]) .nil))))
    (.exprS (.mac n!"println" (.cons (.field (.path [n!"rc_tree"]) n!"rules_referenced_by_rule") .nil))
    (.exprS (.meth (.path [n!"rc_tree"]) n!"repeated_loop_over_referenced_rules" .nil)
    (.exprS (.mac n!"println" (.cons (.field (.path [n!"rc_tree"]) n!"is_rule_left_recursive") .nil))
    (.exprS (.meth (.path [n!"rc_tree"]) n!"get_left_most_called_rules_of_all_rules" (.cons (.path [n!"tree"]) (.cons (.path [n!"source"])
      .nil)))
    (.exprS (.mac n!"println" (.cons (.field (.path [n!"rc_tree"]) n!"rules_left_most_rule_refs") .nil))
    (.exprS (.meth (.path [n!"rc_tree"]) n!"repeated_loop_over_cleanup_left_most_called_rules" .nil)
    (.exprS (.mac n!"println" (.cons (.field (.path [n!"rc_tree"]) n!"is_rule_left_recursive") .nil))
    (.exprS (.meth (.path [n!"rc_tree"]) n!"create_involved_sets" .nil)
    (.exprS (.mac n!"println" (.cons (.field (.path [n!"rc_tree"]) n!"involved_sets") .nil))
    (.exprS (.meth (.path [n!"rc_tree"]) n!"merge_dependent_sets_loop_until_no_change" .nil)
    (.exprS (.mac n!"println" (.cons (.field (.path [n!"rc_tree"]) n!"involved_sets") .nil))
    (.tail (.path [n!"rc_tree"])))))))))))))))))⟩

/-- generator/src/cycle_detector.rs:82 -/
def RuleCallTree.involved_rule_count : Fn :=
  ⟨(some n!"RuleCallTree"), n!"involved_rule_count", .refMut, [], some (.block (.letS (.var n!"count") (.int 0)
    (.exprS (.forIn (.var n!"set") (.meth (.field (.path [n!"self"]) n!"involved_sets") n!"values" .nil) (.block (.exprS (.addAssign (.path
      [n!"count"]) (.meth (.path [n!"set"]) n!"len" .nil))
    .nil)))
    (.tail (.path [n!"count"])))))⟩

/-- generator/src/cycle_detector.rs:90 -/
def RuleCallTree.merge_dependent_sets_loop_until_no_change : Fn :=
  ⟨(some n!"RuleCallTree"), n!"merge_dependent_sets_loop_until_no_change", .refMut, [], some (.block (.letS (.var n!"last_value") (.path
      [n!"usize", n!"MAX"])
    (.letS (.var n!"current_value") (.meth (.path [n!"self"]) n!"involved_rule_count" .nil)
    (.tail (.loop (.ite (.bin .ne (.path [n!"current_value"]) (.path [n!"last_value"])) (.block (.exprS (.assign (.path [n!"last_value"])
      (.path [n!"current_value"]))
    (.exprS (.meth (.path [n!"self"]) n!"merge_dependent_sets" .nil)
    (.exprS (.assign (.path [n!"current_value"]) (.meth (.path [n!"self"]) n!"involved_rule_count" .nil))
    .nil)))) .brk))))))⟩

/-- generator/src/cycle_detector.rs:99 -/
def RuleCallTree.merge_dependent_sets : Fn :=
  ⟨(some n!"RuleCallTree"), n!"merge_dependent_sets", .refMut, [], some (.block (.letS (.var n!"copied_involved_sets") (.meth (.field (.path
      [n!"self"]) n!"involved_sets") n!"clone" .nil)
    (.tail (.forIn (.tuple [n!"rule_name", n!"involved_set"]) (.path [n!"copied_involved_sets"]) (.block (.letS (.var n!"copied_set") (.meth
      (.path [n!"involved_set"]) n!"clone" .nil)
    (.exprS (.forIn (.var n!"subrule_name") (.path [n!"involved_set"]) (.block (.letS (.var n!"subrule_involved_set") (.mtch (.meth (.path
      [n!"copied_involved_sets"]) n!"get" (.cons (.path [n!"subrule_name"]) .nil)) (.cons (.some n!"v") (.path [n!"v"]) (.cons .none (.mac
      n!"panic" .nil) .nil)))
    (.exprS (.assign (.path [n!"copied_set"]) (.meth (.meth (.meth (.path [n!"copied_set"]) n!"union" (.cons (.path
      [n!"subrule_involved_set"]) .nil)) n!"cloned" .nil) n!"collect" .nil))
    .nil))))
    (.exprS (.meth (.field (.path [n!"self"]) n!"involved_sets") n!"insert" (.cons (.meth (.path [n!"rule_name"]) n!"clone" .nil) (.cons
      (.path [n!"copied_set"]) .nil)))
    .nil))))))))⟩

/-- generator/src/cycle_detector.rs:116 -/
def RuleCallTree.create_involved_sets : Fn :=
  ⟨(some n!"RuleCallTree"), n!"create_involved_sets", .refMut, [], some (.block (.tail (.forIn (.tuple [n!"rule_name", n!"left_most_rules"])
      (.field (.path [n!"self"]) n!"rules_left_most_rule_refs") (.block (.letS (.var n!"involved_set") (.call [n!"HashSet", n!"new"] .nil)
    (.exprS (.forIn (.var n!"rule") (.path [n!"left_most_rules"]) (.block (.letS (.var n!"is_lr") (.meth (.field (.path [n!"self"])
      n!"is_rule_left_recursive") n!"get" (.cons (.path [n!"rule"]) .nil))
    (.tail (.mtch (.path [n!"is_lr"]) (.cons .none (.block (.exprS (.meth (.path [n!"involved_set"]) n!"insert" (.cons (.meth (.path
      [n!"rule"]) n!"to_string" .nil) .nil))
    .nil)) (.cons (.some n!"lr") (.block (.tail (.ite (.bin .ne (.path [n!"lr"]) (.path [n!"LeftRecursive", n!"False"])) (.block (.exprS
      (.meth (.path [n!"involved_set"]) n!"insert" (.cons (.meth (.path [n!"rule"]) n!"to_string" .nil) .nil))
    .nil)) (.tuple .nil)))) .nil)))))))
    (.tail (.ite (.not (.meth (.path [n!"involved_set"]) n!"is_empty" .nil)) (.block (.exprS (.meth (.path [n!"involved_set"]) n!"insert"
      (.cons (.meth (.path [n!"rule_name"]) n!"to_string" .nil) .nil))
    (.exprS (.meth (.field (.path [n!"self"]) n!"involved_sets") n!"insert" (.cons (.meth (.path [n!"rule_name"]) n!"to_string" .nil) (.cons
      (.path [n!"involved_set"]) .nil)))
    .nil))) (.tuple .nil)))))))))⟩

/-- generator/src/cycle_detector.rs:140 -/
def RuleCallTree.repeated_loop_over_cleanup_left_most_called_rules : Fn :=
  ⟨(some n!"RuleCallTree"), n!"repeated_loop_over_cleanup_left_most_called_rules", .refMut, [], some (.block (.letS (.var n!"l") (.path
      [n!"usize", n!"MAX"])
    (.exprS (.mac n!"println" (.cons (.meth (.field (.path [n!"self"]) n!"is_rule_left_recursive") n!"len" .nil) (.cons (.bin .ne (.path
      [n!"l"]) (.meth (.field (.path [n!"self"]) n!"is_rule_left_recursive") n!"len" .nil)) .nil)))
    (.tail (.loop (.ite (.bin .ne (.path [n!"l"]) (.meth (.field (.path [n!"self"]) n!"is_rule_left_recursive") n!"len" .nil)) (.block
      (.exprS (.assign (.path [n!"l"]) (.meth (.field (.path [n!"self"]) n!"is_rule_left_recursive") n!"len" .nil))
    (.exprS (.meth (.path [n!"self"]) n!"cleanup_left_most_called_rules" .nil)
    .nil))) .brk))))))⟩

/-- generator/src/cycle_detector.rs:156 -/
def RuleCallTree.cleanup_left_most_called_rules : Fn :=
  ⟨(some n!"RuleCallTree"), n!"cleanup_left_most_called_rules", .refMut, [], some (.block (.tail (.forIn (.tuple [n!"rule_name",
      n!"left_most_rule_refs"]) (.field (.path [n!"self"]) n!"rules_left_most_rule_refs") (.block (.letS (.var n!"is_not_left_recursive")
      (.bool true)
    (.exprS (.forIn (.var n!"left_most_ref") (.path [n!"left_most_rule_refs"]) (.block (.tail (.mtch (.meth (.field (.path [n!"self"])
      n!"is_rule_left_recursive") n!"get" (.cons (.path [n!"left_most_ref"]) .nil)) (.cons .none (.block (.exprS (.assign (.path
      [n!"is_not_left_recursive"]) (.bool false))
    .nil)) (.cons (.some n!"lr") (.block (.tail (.mtch (.path [n!"lr"]) (.cons (.variants [(n!"LeftRecursive", n!"False")]) (.block .nil)
      .nil)))) .nil))))))
    (.tail (.ite (.path [n!"is_not_left_recursive"]) (.block (.exprS (.meth (.field (.path [n!"self"]) n!"is_rule_left_recursive")
      n!"insert" (.cons (.meth (.path [n!"rule_name"]) n!"to_string" .nil) (.cons (.path [n!"LeftRecursive", n!"False"]) .nil)))
    .nil)) (.tuple .nil)))))))))⟩

/-- generator/src/cycle_detector.rs:184 -/
def RuleCallTree.get_left_most_called_rules_of_all_rules : Fn :=
  ⟨(some n!"RuleCallTree"), n!"get_left_most_called_rules_of_all_rules", .refMut, [(n!"tree", false), (n!"source", false)], some (.block
      (.letS (.var n!"rule_strings") (.call [n!"Vec", n!"new"] .nil)
    (.exprS (.forIn (.var n!"rule") (.meth (.field (.path [n!"self"]) n!"rules_keys") n!"keys" .nil) (.block (.exprS (.mtch (.meth (.field
      (.path [n!"self"]) n!"is_rule_left_recursive") n!"get" (.cons (.path [n!"rule"]) .nil)) (.cons .none (.block .nil) (.cons (.some
      n!"lr") (.block (.tail (.ite (.bin .eq (.path [n!"lr"]) (.path [n!"LeftRecursive", n!"False"])) (.block (.exprS .cont
    .nil)) (.tuple .nil)))) .nil)))
    (.exprS (.meth (.path [n!"rule_strings"]) n!"push" (.cons (.meth (.path [n!"rule"]) n!"clone" .nil) .nil))
    .nil))))
    (.tail (.forIn (.var n!"rule_name") (.path [n!"rule_strings"]) (.block (.letS (.var n!"key") (.index (.field (.path [n!"self"])
      n!"rules_rhs_keys") (.path [n!"rule_name"]))
    (.letS (.var n!"node") (.meth (.path [n!"tree"]) n!"get_node" (.cons (.path [n!"key"]) .nil))
    (.exprS (.mac n!"debug_assert" (.cons (.bin .eq (.field (.path [n!"node"]) n!"rule") (.path [n!"Rules", n!"RHS"])) .nil))
    (.letS (.var n!"left_most_rules") (.call [n!"HashSet", n!"new"] .nil)
    (.exprS (.mac n!"println" (.cons (.meth (.path [n!"rule_name"]) n!"clone" .nil) .nil))
    (.exprS (.call [n!"RuleCallTree", n!"get_left_most_called_rules_of_rule"] (.cons (.meth (.path [n!"rule_name"]) n!"clone" .nil) (.cons
      (.path [n!"node"]) (.cons (.path [n!"tree"]) (.cons (.path [n!"source"]) (.cons (.path [n!"left_most_rules"]) .nil))))))
    (.exprS (.meth (.field (.path [n!"self"]) n!"rules_left_most_rule_refs") n!"insert" (.cons (.meth (.path [n!"rule_name"]) n!"to_string"
      .nil) (.cons (.path [n!"left_most_rules"]) .nil)))
    .nil)))))))))))))⟩

/-- generator/src/cycle_detector.rs:216 -/
def RuleCallTree.get_left_most_called_rules_of_rule : Fn :=
  ⟨(some n!"RuleCallTree"), n!"get_left_most_called_rules_of_rule", .none, [(n!"rule_name", false), (n!"node", false), (n!"tree", false),
      (n!"source", false), (n!"left_most_rules", true)], some (.block (.letS (.var n!"node_children") (.meth (.path [n!"node"])
      n!"get_children" .nil)
    (.tail (.forIn (.var n!"child") (.path [n!"node_children"]) (.block (.letS (.var n!"child_node") (.meth (.path [n!"tree"]) n!"get_node"
      (.cons (.path [n!"child"]) .nil))
    (.tail (.mtch (.field (.path [n!"child_node"]) n!"rule") (.cons (.variants [(n!"Rules", n!"Ordered_Choice")]) (.block (.letS (.var
      n!"children") (.meth (.path [n!"child_node"]) n!"get_children" .nil)
    (.letS (.var n!"children") (.slice (.path [n!"children"]) (.int 0) (.bin .sub (.meth (.path [n!"children"]) n!"len" .nil) (.int 1)))
    (.exprS (.forIn (.var n!"child_key") (.path [n!"children"]) (.block (.letS (.var n!"child") (.meth (.path [n!"tree"]) n!"get_node"
      (.cons (.path [n!"child_key"]) .nil))
    (.exprS (.call [n!"RuleCallTree", n!"get_left_most_called_rules_of_rule"] (.cons (.meth (.path [n!"rule_name"]) n!"clone" .nil) (.cons
      (.path [n!"child"]) (.cons (.path [n!"tree"]) (.cons (.path [n!"source"]) (.cons (.path [n!"left_most_rules"]) .nil))))))
    .nil))))
    (.exprS (.ret (.tuple .nil))
    .nil))))) (.cons (.variants [(n!"Rules", n!"Sequence")]) (.block (.exprS (.forIn (.var n!"child") (.path [n!"node_children"]) (.block
      (.letS (.var n!"child_node") (.meth (.path [n!"tree"]) n!"get_node" (.cons (.path [n!"child"]) .nil))
    (.tail (.mtch (.field (.path [n!"child_node"]) n!"rule") (.cons (.variants [(n!"Rules", n!"Optional"), (n!"Rules", n!"Zero_Or_More")])
      (.block .nil) (.cons .wild (.block (.tail .brk)) .nil)))))))
    (.exprS (.ite (.bin .or (.bin .eq (.field (.meth (.path [n!"tree"]) n!"get_node" (.cons (.path [n!"child"]) .nil)) n!"rule") (.path
      [n!"Rules", n!"Optional"])) (.bin .eq (.field (.meth (.path [n!"tree"]) n!"get_node" (.cons (.path [n!"child"]) .nil)) n!"rule")
      (.path [n!"Rules", n!"Zero_Or_More"]))) (.block (.exprS (.ret (.tuple .nil))
    .nil)) (.tuple .nil))
    (.letS (.var n!"child") (.meth (.path [n!"tree"]) n!"get_node" (.cons (.path [n!"child"]) .nil))
    (.exprS (.call [n!"RuleCallTree", n!"get_left_most_called_rules_of_rule"] (.cons (.meth (.path [n!"rule_name"]) n!"clone" .nil) (.cons
      (.path [n!"child"]) (.cons (.path [n!"tree"]) (.cons (.path [n!"source"]) (.cons (.path [n!"left_most_rules"]) .nil))))))
    (.exprS (.ret (.tuple .nil))
    .nil)))))) (.cons (.variants [(n!"Rules", n!"Atom"), (n!"Rules", n!"RHS"), (n!"Rules", n!"Nucleus"), (n!"Rules", n!"Subexpression"),
      (n!"Rules", n!"Hooked_Call"), (n!"Rules", n!"One_Or_More"), (n!"Rules", n!"And_Predicate"), (n!"Rules", n!"Not_Predicate")]) (.block
      (.exprS (.call [n!"RuleCallTree", n!"get_left_most_called_rules_of_rule"] (.cons (.meth (.path [n!"rule_name"]) n!"clone" .nil) (.cons
      (.path [n!"child_node"]) (.cons (.path [n!"tree"]) (.cons (.path [n!"source"]) (.cons (.path [n!"left_most_rules"]) .nil))))))
    (.exprS (.ret (.tuple .nil))
    .nil))) (.cons (.variants [(n!"Rules", n!"Var_Name_Ref")]) (.block (.letS (.var n!"rule_ref") (.call [n!"RuleCallTree",
      n!"get_rule_ref_name"] (.cons (.path [n!"source"]) (.cons (.path [n!"child_node"]) .nil)))
    (.exprS (.meth (.path [n!"left_most_rules"]) n!"insert" (.cons (.path [n!"rule_ref"]) .nil))
    (.exprS (.ret (.tuple .nil))
    .nil)))) (.cons .wild (.block .nil) .nil)))))))))))))⟩

/-- generator/src/cycle_detector.rs:321 -/
def RuleCallTree.repeated_loop_over_referenced_rules : Fn :=
  ⟨(some n!"RuleCallTree"), n!"repeated_loop_over_referenced_rules", .refMut, [], some (.block (.letS (.var n!"l") (.path [n!"usize",
      n!"MAX"])
    (.exprS (.mac n!"println" (.cons (.meth (.field (.path [n!"self"]) n!"is_rule_left_recursive") n!"len" .nil) (.cons (.bin .ne (.path
      [n!"l"]) (.meth (.field (.path [n!"self"]) n!"is_rule_left_recursive") n!"len" .nil)) .nil)))
    (.tail (.loop (.ite (.bin .ne (.path [n!"l"]) (.meth (.field (.path [n!"self"]) n!"is_rule_left_recursive") n!"len" .nil)) (.block
      (.exprS (.assign (.path [n!"l"]) (.meth (.field (.path [n!"self"]) n!"is_rule_left_recursive") n!"len" .nil))
    (.exprS (.meth (.path [n!"self"]) n!"loop_over_referenced_rules" .nil)
    .nil))) .brk))))))⟩

/-- generator/src/cycle_detector.rs:342 -/
def RuleCallTree.loop_over_referenced_rules : Fn :=
  ⟨(some n!"RuleCallTree"), n!"loop_over_referenced_rules", .refMut, [], some (.block (.tail (.forIn (.tuple [n!"rule_name",
      n!"referenced_rules"]) (.field (.path [n!"self"]) n!"rules_referenced_by_rule") (.block (.tail (.ite (.meth (.path
      [n!"referenced_rules"]) n!"is_empty" .nil) (.block (.exprS (.meth (.field (.path [n!"self"]) n!"is_rule_left_recursive") n!"insert"
      (.cons (.meth (.path [n!"rule_name"]) n!"to_string" .nil) (.cons (.path [n!"LeftRecursive", n!"False"]) .nil)))
    .nil)) (.block (.letS (.var n!"are_all_referenced_rules_not_left_recursive") (.bool true)
    (.exprS (.forIn (.var n!"ref_rule") (.path [n!"referenced_rules"]) (.block (.letS (.var n!"is_lr") (.meth (.field (.path [n!"self"])
      n!"is_rule_left_recursive") n!"get" (.cons (.path [n!"ref_rule"]) .nil))
    (.tail (.mtch (.path [n!"is_lr"]) (.cons .none (.block (.exprS (.assign (.path [n!"are_all_referenced_rules_not_left_recursive"]) (.bool
      false))
    .nil)) (.cons (.some n!"lr") (.block (.tail (.mtch (.path [n!"lr"]) (.cons (.variants [(n!"LeftRecursive", n!"False")]) (.block .nil)
      .nil)))) .nil)))))))
    (.tail (.ite (.path [n!"are_all_referenced_rules_not_left_recursive"]) (.block (.exprS (.meth (.field (.path [n!"self"])
      n!"is_rule_left_recursive") n!"insert" (.cons (.meth (.path [n!"rule_name"]) n!"to_string" .nil) (.cons (.path [n!"LeftRecursive",
      n!"False"]) .nil)))
    .nil)) (.tuple .nil))))))))))))⟩

/-- generator/src/cycle_detector.rs:375 -/
def RuleCallTree.get_rule_rhs_index : Fn :=
  ⟨(some n!"RuleCallTree"), n!"get_rule_rhs_index", .none, [(n!"node", false)], some (.block (.exprS (.mac n!"debug_assert_eq" (.cons
      (.field (.path [n!"node"]) n!"rule") (.cons (.path [n!"Rules", n!"Rule"]) .nil)))
    (.letS (.var n!"rhs") (.index (.meth (.path [n!"node"]) n!"get_children" .nil) (.int 1))
    (.tail (.path [n!"rhs"])))))⟩

/-- generator/src/cycle_detector.rs:383 -/
def RuleCallTree.get_rules_name : Fn :=
  ⟨(some n!"RuleCallTree"), n!"get_rules_name", .none, [(n!"tree", false), (n!"source", false), (n!"node", false)], some (.block (.exprS
      (.mac n!"debug_assert_eq" (.cons (.field (.path [n!"node"]) n!"rule") (.cons (.path [n!"Rules", n!"Rule"]) .nil)))
    (.letS (.var n!"lhs") (.index (.meth (.path [n!"node"]) n!"get_children" .nil) (.int 0))
    (.letS (.var n!"lhs") (.meth (.path [n!"tree"]) n!"get_node" (.cons (.path [n!"lhs"]) .nil))
    (.exprS (.mac n!"debug_assert_eq" (.cons (.field (.path [n!"lhs"]) n!"rule") (.cons (.path [n!"Rules", n!"LHS"]) .nil)))
    (.letS (.var n!"var_name_decl") (.index (.meth (.path [n!"lhs"]) n!"get_children" .nil) (.int 0))
    (.letS (.var n!"var_name_decl") (.meth (.path [n!"tree"]) n!"get_node" (.cons (.path [n!"var_name_decl"]) .nil))
    (.exprS (.mac n!"debug_assert_eq" (.cons (.field (.path [n!"var_name_decl"]) n!"rule") (.cons (.path [n!"Rules", n!"Var_Name_Decl"])
      .nil)))
    (.letS (.var n!"s") (.meth (.path [n!"var_name_decl"]) n!"get_string" (.cons (.path [n!"source"]) .nil))
    (.tail (.meth (.slice (.path [n!"s"]) (.int 1) (.bin .sub (.meth (.path [n!"s"]) n!"len" .nil) (.int 1))) n!"to_string" .nil)))))))))))⟩

/-- generator/src/cycle_detector.rs:397 -/
def RuleCallTree.get_rule_ref_name : Fn :=
  ⟨(some n!"RuleCallTree"), n!"get_rule_ref_name", .none, [(n!"source", false), (n!"node", false)], some (.block (.exprS (.mac
      n!"debug_assert_eq" (.cons (.field (.path [n!"node"]) n!"rule") (.cons (.path [n!"Rules", n!"Var_Name_Ref"]) .nil)))
    (.letS (.var n!"s") (.meth (.path [n!"node"]) n!"get_string" (.cons (.path [n!"source"]) .nil))
    (.tail (.meth (.slice (.path [n!"s"]) (.int 1) (.bin .sub (.meth (.path [n!"s"]) n!"len" .nil) (.int 1))) n!"to_string" .nil)))))⟩

/-- generator/src/cycle_detector.rs:403 -/
def RuleCallTree.get_rules_referenced_by_rule : Fn :=
  ⟨(some n!"RuleCallTree"), n!"get_rules_referenced_by_rule", .none, [(n!"tree", false), (n!"source", false), (n!"node", false),
      (n!"referenced_rules", true)], some (.block (.exprS (.block (.letS (.var n!"node_children") (.meth (.path [n!"node"]) n!"get_children"
      .nil)
    (.exprS (.forIn (.var n!"child") (.path [n!"node_children"]) (.block (.letS (.var n!"child_node") (.meth (.path [n!"tree"]) n!"get_node"
      (.cons (.path [n!"child"]) .nil))
    (.exprS (.ite (.bin .eq (.field (.path [n!"child_node"]) n!"rule") (.path [n!"Rules", n!"Var_Name_Ref"])) (.block (.exprS (.meth (.path
      [n!"referenced_rules"]) n!"insert" (.cons (.call [n!"RuleCallTree", n!"get_rule_ref_name"] (.cons (.path [n!"source"]) (.cons (.path
      [n!"child_node"]) .nil))) .nil))
    .nil)) (.tuple .nil))
    (.exprS (.call [n!"RuleCallTree", n!"get_rules_referenced_by_rule"] (.cons (.path [n!"tree"]) (.cons (.path [n!"source"]) (.cons (.path
      [n!"child_node"]) (.cons (.path [n!"referenced_rules"]) .nil)))))
    .nil)))))
    (.tail (.path [n!"referenced_rules"])))))
    .nil))⟩

/-- generator/src/cycle_detector.rs:421 -/
def RuleCallTree.walk_node_children : Fn :=
  ⟨(some n!"RuleCallTree"), n!"walk_node_children", .refMut, [(n!"tree", false), (n!"source", false), (n!"node", false)], some (.block
      (.letS (.var n!"node_children") (.meth (.path [n!"node"]) n!"get_children" .nil)
    (.tail (.forIn (.var n!"child") (.path [n!"node_children"]) (.block (.letS (.var n!"child_node") (.meth (.path [n!"tree"]) n!"get_node"
      (.cons (.path [n!"child"]) .nil))
    (.exprS (.ite (.bin .eq (.field (.path [n!"child_node"]) n!"rule") (.path [n!"Rules", n!"Rule"])) (.block (.letS (.var n!"rule_name")
      (.call [n!"RuleCallTree", n!"get_rules_name"] (.cons (.path [n!"tree"]) (.cons (.path [n!"source"]) (.cons (.path [n!"child_node"])
      .nil))))
    (.exprS (.meth (.field (.path [n!"self"]) n!"rules_keys") n!"insert" (.cons (.meth (.path [n!"rule_name"]) n!"clone" .nil) (.cons (.path
      [n!"child"]) .nil)))
    (.letS (.var n!"rules_rhs_index") (.call [n!"RuleCallTree", n!"get_rule_rhs_index"] (.cons (.path [n!"child_node"]) .nil))
    (.exprS (.meth (.field (.path [n!"self"]) n!"rules_rhs_keys") n!"insert" (.cons (.meth (.path [n!"rule_name"]) n!"clone" .nil) (.cons
      (.path [n!"rules_rhs_index"]) .nil)))
    (.letS (.var n!"rules_referenced_by_rule") (.call [n!"HashSet", n!"new"] .nil)
    (.exprS (.call [n!"RuleCallTree", n!"get_rules_referenced_by_rule"] (.cons (.path [n!"tree"]) (.cons (.path [n!"source"]) (.cons (.path
      [n!"child_node"]) (.cons (.path [n!"rules_referenced_by_rule"]) .nil)))))
    (.exprS (.meth (.field (.path [n!"self"]) n!"rules_referenced_by_rule") n!"insert" (.cons (.path [n!"rule_name"]) (.cons (.path
      [n!"rules_referenced_by_rule"]) .nil)))
    .nil)))))))) (.tuple .nil))
    (.exprS (.meth (.path [n!"self"]) n!"walk_node_children" (.cons (.path [n!"tree"]) (.cons (.path [n!"source"]) (.cons (.path
      [n!"child_node"]) .nil))))
    .nil))))))))⟩

/-- The items of generator/src/cycle_detector.rs. -/
def cycleDetectorItems : List Item :=
  [.fn LeftRecursionDetector.new, .fn LeftRecursionDetector.get_left_recursion_rules, .enum n!"LeftRecursive" [n!"False"], .fn
   RuleCallTree.new, .fn RuleCallTree.involved_rule_count, .fn RuleCallTree.merge_dependent_sets_loop_until_no_change, .fn
   RuleCallTree.merge_dependent_sets, .fn RuleCallTree.create_involved_sets, .fn
   RuleCallTree.repeated_loop_over_cleanup_left_most_called_rules, .fn RuleCallTree.cleanup_left_most_called_rules, .fn
   RuleCallTree.get_left_most_called_rules_of_all_rules, .fn RuleCallTree.get_left_most_called_rules_of_rule, .fn
   RuleCallTree.repeated_loop_over_referenced_rules, .fn RuleCallTree.loop_over_referenced_rules, .fn RuleCallTree.get_rule_rhs_index, .fn
   RuleCallTree.get_rules_name, .fn RuleCallTree.get_rule_ref_name, .fn RuleCallTree.get_rules_referenced_by_rule, .fn
   RuleCallTree.walk_node_children]

/-- generator/src/constructor.rs:19 -/
def GeneratedCode.new : Fn :=
  ⟨(some n!"GeneratedCode"), n!"new", .none, [(n!"left_recursive_rules", false), (n!"symbol_table", false), (n!"tree", false), (n!"source",
      false)], some (.block (.exprS (.mac n!"println" .nil)
    (.letS (.var n!"hooked_call_imports_required") (.call [n!"Vec", n!"new"] .nil)
    (.letS (.var n!"rules") (.call [n!"GeneratedCode", n!"generate"] (.cons (.path [n!"hooked_call_imports_required"]) (.cons (.path
      [n!"left_recursive_rules"]) (.cons (.path [n!"symbol_table"]) (.cons (.path [n!"tree"]) (.cons (.path [n!"source"]) .nil))))))
    (.letS (.tuple [n!"rules_enum", n!"num_rules"]) (.call [n!"GeneratedCode", n!"generate_rules_enum"] (.cons (.path [n!"symbol_table"])
      .nil))
    (.letS (.var n!"rules_enum_header") (.mac n!"indoc" (.cons (.str
      (utf8Of "#![allow(non_camel_case_types)] // Again due to generation -> Might solve eventually\n            use num_derive::FromPrimitive;\n            impl From<u32> for Rules {\n                fn from(i: u32) -> Rules {\n                    let element = num::FromPrimitive::from_u32(i);\n                    match element {\n                        Some(rule) => rule,\n                        None => panic!(\"Not a valid Rule\"),\n                    }\n                }\n            }"))
      .nil))
    (.letS (.var n!"rules_enum_header_2") (.mac n!"indoc" (.cons (.str
      (utf8Of "\n            #[allow(clippy::upper_case_acronyms)] // Again due to generation -> Might solve eventually\n            #[derive(PartialEq, Eq, Hash, FromPrimitive, Clone, Copy, Debug, Ord, PartialOrd)]\n        "))
      .nil))
    (.letS (.var n!"rules_size_header") (.mac n!"indoc" (.cons (.str
      (utf8Of "#[allow(dead_code)]\n                pub static RULES_SIZE: u32 = ")) .nil))
    (.letS (.var n!"parser_header") (.meth (.mac n!"indoc" (.cons (.str
      (utf8Of "#![allow(non_camel_case_types)] // Generated Code kinda annoying to deal with so w/e\n            #![allow(unused_variables)] // Generated Code also, since everything passes stuff\n            #![allow(unused_imports)] // Generated Code also, since everything passes stuff\n            use crate::*;\n            use std::cell::RefCell;"))
      .nil)) n!"to_string" .nil)
    (.exprS (.ite (.not (.meth (.path [n!"hooked_call_imports_required"]) n!"is_empty" .nil)) (.block (.letS (.var n!"import") (.meth (.str
      (utf8Of "use crate::hooked_calls::{")) n!"to_string" .nil)
    (.exprS (.forIn (.var n!"hooked_call") (.path [n!"hooked_call_imports_required"]) (.block (.exprS (.addAssign (.path [n!"import"]) (.bin
      .add (.path [n!"hooked_call"]) (.str (utf8Of ","))))
    .nil)))
    (.exprS (.meth (.path [n!"import"]) n!"pop" .nil)
    (.exprS (.addAssign (.path [n!"import"]) (.str (utf8Of "};")))
    (.exprS (.assign (.path [n!"parser_header"]) (.bin .add (.meth (.path [n!"parser_header"]) n!"to_owned" .nil) (.path [n!"import"])))
    .nil)))))) (.tuple .nil))
    (.letS (.var n!"s") (.struct n!"GeneratedCode" (.cons n!"rules_enum_header" (.path [n!"rules_enum_header"]) (.cons n!"rules_size_header"
      (.path [n!"rules_size_header"]) (.cons n!"parser_header" (.path [n!"parser_header"]) (.cons n!"rules" (.path [n!"rules"]) (.cons
      n!"rules_enum" (.path [n!"rules_enum"]) (.cons n!"num_rules" (.path [n!"num_rules"]) (.cons n!"rules_enum_header_2" (.path
      [n!"rules_enum_header_2"]) .nil))))))))
    (.exprS (.mac n!"println" .nil)
    (.tail (.path [n!"s"]))))))))))))))⟩

/-- generator/src/constructor.rs:88 -/
def GeneratedCode.sample_main_header : Fn :=
  ⟨(some n!"GeneratedCode"), n!"sample_main_header", .ref, [(n!"name", false)], some (.block (.letS (.var n!"name") (.meth (.path
      [n!"name"]) n!"replace" (.cons (.str (utf8Of "-")) (.cons (.str (utf8Of "_")) .nil)))
    (.tail (.fmt [.lit (utf8Of "use "), .dispVar n!"name", .lit (utf8Of "::*;\n")] .nil))))⟩

/-- generator/src/constructor.rs:93 -/
def GeneratedCode.parser_file_content : Fn :=
  ⟨(some n!"GeneratedCode"), n!"parser_file_content", .ref, [], some (.block (.letS (.var n!"rules") (.meth (.str (utf8Of "")) n!"to_string"
      .nil)
    (.exprS (.forIn (.var n!"i") (.field (.path [n!"self"]) n!"rules") (.block (.exprS (.meth (.path [n!"rules"]) n!"push_str" (.cons (.path
      [n!"i"]) .nil))
    .nil)))
    (.tail (.fmt [.lit (utf8Of ""), .disp, .lit (utf8Of "\n"), .disp, .lit (utf8Of "")] (.cons (.field (.path [n!"self"]) n!"parser_header")
      (.cons (.path [n!"rules"]) .nil)))))))⟩

/-- generator/src/constructor.rs:101 -/
def GeneratedCode.rules_enum_file_content : Fn :=
  ⟨(some n!"GeneratedCode"), n!"rules_enum_file_content", .ref, [], some (.block (.letS (.var n!"rules_size") (.fmt [.lit (utf8Of ""),
      .disp, .lit (utf8Of " "), .disp, .lit (utf8Of ";")] (.cons (.field (.path [n!"self"]) n!"rules_size_header") (.cons (.field (.path
      [n!"self"]) n!"num_rules") .nil)))
    (.tail (.fmt [.lit (utf8Of ""), .disp, .lit (utf8Of "\n"), .disp, .lit (utf8Of "\n"), .disp, .lit (utf8Of "\n"), .disp, .lit
      (utf8Of "")] (.cons (.field (.path [n!"self"]) n!"rules_enum_header") (.cons (.path [n!"rules_size"]) (.cons (.field (.path
      [n!"self"]) n!"rules_enum_header_2") (.cons (.field (.path [n!"self"]) n!"rules_enum") .nil))))))))⟩

/-- generator/src/constructor.rs:109 -/
def GeneratedCode.print : Fn :=
  ⟨(some n!"GeneratedCode"), n!"print", .ref, [], some (.block (.exprS (.mac n!"println" (.cons (.field (.path [n!"self"]) n!"num_rules")
      .nil))
    (.exprS (.mac n!"println" .nil)
    (.exprS (.mac n!"println" (.cons (.field (.path [n!"self"]) n!"rules_enum") .nil))
    (.exprS (.mac n!"println" .nil)
    (.exprS (.mac n!"print" (.cons (.field (.path [n!"self"]) n!"parser_header") .nil))
    (.tail (.forIn (.var n!"i") (.field (.path [n!"self"]) n!"rules") (.block (.tail (.mac n!"println" .nil)))))))))))⟩

/-- generator/src/constructor.rs:120 -/
def GeneratedCode.generate : Fn :=
  ⟨(some n!"GeneratedCode"), n!"generate", .none, [(n!"hooked_call_imports_required", true), (n!"left_recursive_rules", false),
      (n!"symbol_table", false), (n!"tree", false), (n!"source", false)], some (.block (.letS (.var n!"node") (.meth (.path [n!"tree"])
      n!"get_node" (.cons (.call [n!"Key"] (.cons (.int 0) .nil)) .nil))
    (.exprS (.ite (.bin .ne (.field (.path [n!"node"]) n!"rule") (.path [n!"Rules", n!"Grammar"])) (.block (.exprS (.mac n!"panic" .nil)
    .nil)) (.tuple .nil))
    (.letS (.var n!"counter") (.int 0)
    (.letS (.var n!"rules") (.call [n!"Vec", n!"new"] .nil)
    (.exprS (.loop (.block (.exprS (.ite (.bin .ge (.path [n!"counter"]) (.meth (.meth (.path [n!"node"]) n!"get_children" .nil) n!"len"
      .nil)) (.block (.exprS .brk
    .nil)) (.tuple .nil))
    (.letS (.var n!"child_index") (.index (.meth (.path [n!"node"]) n!"get_children" .nil) (.path [n!"counter"]))
    (.letS (.var n!"rule") (.call [n!"GeneratedCode", n!"match_rule"] (.cons (.path [n!"hooked_call_imports_required"]) (.cons (.path
      [n!"left_recursive_rules"]) (.cons (.path [n!"symbol_table"]) (.cons (.path [n!"tree"]) (.cons (.path [n!"source"]) (.cons (.path
      [n!"child_index"]) .nil)))))))
    (.exprS (.meth (.path [n!"rules"]) n!"push" (.cons (.path [n!"rule"]) .nil))
    (.exprS (.addAssign (.path [n!"counter"]) (.int 1))
    .nil)))))))
    (.tail (.path [n!"rules"]))))))))⟩

/-- generator/src/constructor.rs:153 -/
def GeneratedCode.generate_rules_enum : Fn :=
  ⟨(some n!"GeneratedCode"), n!"generate_rules_enum", .none, [(n!"symbol_table", false)], some (.block (.letS (.var n!"rules_enum") (.meth
      (.str (utf8Of "pub enum Rules {\n")) n!"to_string" .nil)
    (.letS (.var n!"count") (.int 0)
    (.exprS (.forIn (.var n!"s") (.meth (.path [n!"symbol_table"]) n!"get_names" .nil) (.block (.letS (.var n!"rule_name") (.clo [n!"s"]
      (.block (.letS (.var n!"start_char") (.meth (.meth (.meth (.path [n!"s"]) n!"chars" .nil) n!"nth" (.cons (.int 0) .nil)) n!"expect"
      (.cons (.str (utf8Of "Should exist")) .nil))
    (.letS (.var n!"start_char") (.meth (.meth (.path [n!"start_char"]) n!"to_uppercase" .nil) n!"to_string" .nil)
    (.letS (.var n!"rule_name") (.bin .add (.path [n!"start_char"]) (.field (.meth (.meth (.path [n!"s"]) n!"split_at_checked" (.cons (.int
      1) .nil)) n!"unwrap" .nil) 1))
    (.tail (.path [n!"rule_name"])))))))
    (.tail (.ite (.not (.meth (.path [n!"symbol_table"]) n!"check_symbol_is_inline" (.cons (.path [n!"s"]) .nil))) (.block (.exprS (.meth
      (.path [n!"rules_enum"]) n!"push" (.cons (.char 9) .nil))
    (.exprS (.meth (.path [n!"rules_enum"]) n!"push_str" (.cons (.call [n!"rule_name"] (.cons (.meth (.path [n!"s"]) n!"to_string" .nil)
      .nil)) .nil))
    (.exprS (.meth (.path [n!"rules_enum"]) n!"push" (.cons (.char 44) .nil))
    (.exprS (.meth (.path [n!"rules_enum"]) n!"push" (.cons (.char 10) .nil))
    (.exprS (.addAssign (.path [n!"count"]) (.int 1))
    .nil)))))) (.tuple .nil))))))
    (.exprS (.meth (.path [n!"rules_enum"]) n!"push_str" (.cons (.str (utf8Of "\n}")) .nil))
    (.tail (.tuple (.cons (.path [n!"rules_enum"]) (.cons (.path [n!"count"]) .nil)))))))))⟩

/-- generator/src/constructor.rs:176 -/
def GeneratedCode.match_rule : Fn :=
  ⟨(some n!"GeneratedCode"), n!"match_rule", .none, [(n!"hooked_call_imports_required", true), (n!"left_recursive_rules", false),
      (n!"symbol_table", false), (n!"tree", false), (n!"source", false), (n!"index", false)], some (.block (.letS (.var n!"node") (.meth
      (.path [n!"tree"]) n!"get_node" (.cons (.path [n!"index"]) .nil))
    (.tail (.mtch (.field (.path [n!"node"]) n!"rule") (.cons (.variants [(n!"Rules", n!"Rule")]) (.call [n!"GeneratedCode", n!"rule"]
      (.cons (.path [n!"hooked_call_imports_required"]) (.cons (.path [n!"left_recursive_rules"]) (.cons (.path [n!"symbol_table"]) (.cons
      (.path [n!"tree"]) (.cons (.path [n!"source"]) (.cons (.path [n!"index"]) .nil))))))) (.cons .wild (.block (.tail (.mac n!"todo"
      .nil))) .nil))))))⟩

/-- generator/src/constructor.rs:200 -/
def GeneratedCode.rule : Fn :=
  ⟨(some n!"GeneratedCode"), n!"rule", .none, [(n!"hooked_call_imports_required", true), (n!"left_recursive_rules", false),
      (n!"symbol_table", false), (n!"tree", false), (n!"source", false), (n!"index", false)], some (.block (.letS (.var n!"rule_node")
      (.meth (.path [n!"tree"]) n!"get_node" (.cons (.path [n!"index"]) .nil))
    (.letS (.var n!"rule_children") (.meth (.path [n!"rule_node"]) n!"get_children" .nil)
    (.letS (.var n!"name") (.path [n!"None"])
    (.letS (.var n!"rhs") (.meth (.str (utf8Of "")) n!"to_string" .nil)
    (.letS (.var n!"comment") (.path [n!"None"])
    (.exprS (.forIn (.var n!"i") (.path [n!"rule_children"]) (.block (.tail (.mtch (.field (.meth (.path [n!"tree"]) n!"get_node" (.cons
      (.path [n!"i"]) .nil)) n!"rule") (.cons (.variants [(n!"Rules", n!"LHS")]) (.block (.exprS (.assign (.path [n!"name"]) (.call
      [n!"Some"] (.cons (.call [n!"GeneratedCode", n!"lhs"] (.cons (.path [n!"symbol_table"]) (.cons (.path [n!"tree"]) (.cons (.path
      [n!"source"]) (.cons (.path [n!"i"]) .nil))))) .nil)))
    (.exprS (.assign (.path [n!"name"]) (.call [n!"Some"] (.cons (.meth (.meth (.path [n!"name"]) n!"unwrap" .nil) n!"to_lowercase" .nil)
      .nil)))
    .nil))) (.cons (.variants [(n!"Rules", n!"RHS")]) (.block (.letS (.var n!"out_tree") (.call [n!"BinaryTreeWO", n!"new"] .nil)
    (.letS (.var n!"rhs_key") (.call [n!"GeneratedCode", n!"rhs"] (.cons (.path [n!"hooked_call_imports_required"]) (.cons (.path
      [n!"left_recursive_rules"]) (.cons (.path [n!"out_tree"]) (.cons (.path [n!"symbol_table"]) (.cons (.path [n!"tree"]) (.cons (.path
      [n!"source"]) (.cons (.path [n!"i"]) .nil))))))))
    (.letS (.var n!"last_key") (.meth (.path [n!"out_tree"]) n!"push" (.cons (.path [n!"Reference", n!"Exec"]) (.cons (.call [n!"Some"]
      (.cons (.path [n!"rhs_key"]) .nil)) (.cons (.path [n!"None"]) .nil))))
    (.letS (.var n!"result") (.meth (.str (utf8Of "")) n!"to_string" .nil)
    (.exprS (.forIn (.var n!"i") (.meth (.path [n!"out_tree"]) n!"to_string" (.cons (.path [n!"last_key"]) .nil)) (.block (.exprS (.meth
      (.path [n!"result"]) n!"push" (.cons (.char 9) .nil))
    (.exprS (.meth (.path [n!"result"]) n!"push_str" (.cons (.path [n!"i"]) .nil))
    (.exprS (.meth (.path [n!"result"]) n!"push" (.cons (.char 10) .nil))
    .nil)))))
    (.tail (.assign (.path [n!"rhs"]) (.path [n!"result"]))))))))) (.cons (.variants [(n!"Rules", n!"Comment")]) (.block (.exprS (.assign
      (.path [n!"comment"]) (.call [n!"Some"] (.cons (.call [n!"GeneratedCode", n!"comment"] (.cons (.path [n!"symbol_table"]) (.cons (.path
      [n!"tree"]) (.cons (.path [n!"source"]) (.cons (.path [n!"i"]) .nil))))) .nil)))
    .nil)) (.cons .wild (.block .nil) .nil))))))))
    (.letS (.var n!"name") (.meth (.path [n!"name"]) n!"expect" (.cons (.str (utf8Of "Must have name")) .nil))
    (.letS (.var n!"rule_header") (.fmt [.lit (utf8Of "#[allow(dead_code)]\npub fn "), .dispVar n!"name", .lit
      (utf8Of "<T: Context>(user_state: &RefCell<UserState>, parent: Key, context: &RefCell<T>, source: &Source, position: u32) -> (bool, u32) {")]
      .nil)
    (.letS (.var n!"builder") (.fmt [.lit (utf8Of ""), .disp, .lit (utf8Of "\n"), .disp, .lit (utf8Of "\n"), .disp, .lit (utf8Of "\n}\n")]
      (.cons (.path [n!"rule_header"]) (.cons (.meth (.path [n!"comment"]) n!"unwrap_or" (.cons (.meth (.str (utf8Of "")) n!"to_string"
      .nil) .nil)) (.cons (.path [n!"rhs"]) .nil))))
    (.tail (.path [n!"builder"]))))))))))))⟩

/-- generator/src/constructor.rs:263 -/
def GeneratedCode.lhs : Fn :=
  ⟨(some n!"GeneratedCode"), n!"lhs", .none, [(n!"_symbol_table", false), (n!"tree", false), (n!"source", false), (n!"index", false)], some
      (.block (.letS (.var n!"lhs_node") (.meth (.path [n!"tree"]) n!"get_node" (.cons (.path [n!"index"]) .nil))
    (.letS (.var n!"lhs_children") (.meth (.path [n!"lhs_node"]) n!"get_children" .nil)
    (.letS (.var n!"var_name_decl_key") (.index (.path [n!"lhs_children"]) (.int 0))
    (.letS (.var n!"var_name_decl") (.meth (.path [n!"tree"]) n!"get_node" (.cons (.path [n!"var_name_decl_key"]) .nil))
    (.letS (.var n!"name") (.meth (.path [n!"var_name_decl"]) n!"get_string" (.cons (.path [n!"source"]) .nil))
    (.letS (.var n!"s") (.path [n!"name"])
    (.exprS (.meth (.path [n!"s"]) n!"pop" .nil)
    (.exprS (.ite (.not (.meth (.path [n!"s"]) n!"is_empty" .nil)) (.block (.exprS (.meth (.path [n!"s"]) n!"remove" (.cons (.int 0) .nil))
    .nil)) (.tuple .nil))
    (.tail (.path [n!"s"])))))))))))⟩

/-- generator/src/constructor.rs:281 -/
def GeneratedCode.comment : Fn :=
  ⟨(some n!"GeneratedCode"), n!"comment", .none, [(n!"_symbol_table", false), (n!"tree", false), (n!"source", false), (n!"index", false)],
      some (.block (.letS (.var n!"comment_node") (.meth (.path [n!"tree"]) n!"get_node" (.cons (.path [n!"index"]) .nil))
    (.letS (.var n!"start") (.path [n!"None"])
    (.letS (.var n!"end") (.path [n!"None"])
    (.exprS (.forIn (.var n!"key") (.meth (.path [n!"comment_node"]) n!"get_children" .nil) (.block (.exprS (.mtch (.field (.meth (.path
      [n!"tree"]) n!"get_node" (.cons (.path [n!"key"]) .nil)) n!"rule") (.cons (.variants [(n!"Rules", n!"ASCII")]) (.block (.exprS (.ite
      (.meth (.path [n!"start"]) n!"is_none" .nil) (.block (.exprS (.assign (.path [n!"start"]) (.call [n!"Some"] (.cons (.field (.meth
      (.path [n!"tree"]) n!"get_node" (.cons (.path [n!"key"]) .nil)) n!"start_position") .nil)))
    .nil)) (.tuple .nil))
    (.exprS (.assign (.path [n!"end"]) (.call [n!"Some"] (.cons (.field (.meth (.path [n!"tree"]) n!"get_node" (.cons (.path [n!"key"])
      .nil)) n!"end_position") .nil)))
    .nil))) (.cons .wild (.tuple .nil) .nil)))
    .nil)))
    (.letS (.var n!"input_str") (.slice (.path [n!"source"]) (.cast (.meth (.path [n!"start"]) n!"expect" (.cons (.str
      (utf8Of "Must have start")) .nil)) n!"usize") (.cast (.meth (.path [n!"end"]) n!"expect" (.cons (.str (utf8Of "Must have end")) .nil))
      n!"usize"))
    (.letS (.var n!"input_strs") (.meth (.path [n!"input_str"]) n!"split" (.cons (.str (utf8Of "\n")) .nil))
    (.letS (.var n!"response_str") (.meth (.str (utf8Of "")) n!"to_string" .nil)
    (.exprS (.forIn (.var n!"input") (.path [n!"input_strs"]) (.block (.letS (.var n!"input") (.meth (.path [n!"input"]) n!"trim" .nil)
    (.exprS (.addAssign (.path [n!"response_str"]) (.str (utf8Of "\t// ")))
    (.exprS (.addAssign (.path [n!"response_str"]) (.path [n!"input"]))
    (.exprS (.addAssign (.path [n!"response_str"]) (.str (utf8Of "\n")))
    .nil))))))
    (.tail (.path [n!"response_str"])))))))))))⟩

/-- generator/src/constructor.rs:312 -/
def GeneratedCode.rhs : Fn :=
  ⟨(some n!"GeneratedCode"), n!"rhs", .none, [(n!"hooked_call_imports_required", true), (n!"left_recursive_rules", false), (n!"out_tree",
      true), (n!"symbol_table", false), (n!"tree", false), (n!"source", false), (n!"index", false)], some (.block (.letS (.var n!"rhs_node")
      (.meth (.path [n!"tree"]) n!"get_node" (.cons (.path [n!"index"]) .nil))
    (.letS (.var n!"ret_key") (.call [n!"Key"] (.cons (.int 0) .nil))
    (.exprS (.forIn (.var n!"i") (.meth (.path [n!"rhs_node"]) n!"get_children" .nil) (.block (.tail (.mtch (.field (.meth (.path
      [n!"tree"]) n!"get_node" (.cons (.path [n!"i"]) .nil)) n!"rule") (.cons (.variants [(n!"Rules", n!"Ordered_Choice")]) (.block (.exprS
      (.assign (.path [n!"ret_key"]) (.call [n!"GeneratedCode", n!"ordered_choice"] (.cons (.path [n!"hooked_call_imports_required"]) (.cons
      (.path [n!"left_recursive_rules"]) (.cons (.path [n!"out_tree"]) (.cons (.path [n!"symbol_table"]) (.cons (.path [n!"tree"]) (.cons
      (.path [n!"source"]) (.cons (.path [n!"i"]) .nil)))))))))
    .nil)) (.cons (.variants [(n!"Rules", n!"Sequence")]) (.block (.exprS (.assign (.path [n!"ret_key"]) (.call [n!"GeneratedCode",
      n!"sequence"] (.cons (.path [n!"hooked_call_imports_required"]) (.cons (.path [n!"left_recursive_rules"]) (.cons (.path
      [n!"out_tree"]) (.cons (.path [n!"symbol_table"]) (.cons (.path [n!"tree"]) (.cons (.path [n!"source"]) (.cons (.path [n!"i"])
      .nil)))))))))
    .nil)) (.cons (.variants [(n!"Rules", n!"Atom")]) (.block (.tail (.assign (.path [n!"ret_key"]) (.call [n!"GeneratedCode", n!"atom"]
      (.cons (.path [n!"hooked_call_imports_required"]) (.cons (.path [n!"left_recursive_rules"]) (.cons (.path [n!"out_tree"]) (.cons
      (.path [n!"symbol_table"]) (.cons (.path [n!"tree"]) (.cons (.path [n!"source"]) (.cons (.path [n!"i"]) .nil))))))))))) (.cons .wild
      (.mac n!"panic" .nil) .nil))))))))
    (.tail (.path [n!"ret_key"]))))))⟩

/-- generator/src/constructor.rs:364 -/
def GeneratedCode.ordered_choice : Fn :=
  ⟨(some n!"GeneratedCode"), n!"ordered_choice", .none, [(n!"hooked_call_imports_required", true), (n!"left_recursive_rules", false),
      (n!"out_tree", true), (n!"symbol_table", false), (n!"tree", false), (n!"source", false), (n!"index", false)], some (.block (.letS
      (.var n!"oc_node") (.meth (.path [n!"tree"]) n!"get_node" (.cons (.path [n!"index"]) .nil))
    (.letS (.var n!"count") (.int 0)
    (.letS (.var n!"last_key") (.call [n!"Key"] (.cons (.int 0) .nil))
    (.exprS (.forIn (.var n!"i") (.meth (.path [n!"oc_node"]) n!"get_children" .nil) (.block (.tail (.mtch (.field (.meth (.path [n!"tree"])
      n!"get_node" (.cons (.path [n!"i"]) .nil)) n!"rule") (.cons (.variants [(n!"Rules", n!"Atom")]) (.block (.letS (.var n!"key") (.call
      [n!"GeneratedCode", n!"atom"] (.cons (.path [n!"hooked_call_imports_required"]) (.cons (.path [n!"left_recursive_rules"]) (.cons
      (.path [n!"out_tree"]) (.cons (.path [n!"symbol_table"]) (.cons (.path [n!"tree"]) (.cons (.path [n!"source"]) (.cons (.path [n!"i"])
      .nil))))))))
    (.exprS (.ite (.bin .ne (.path [n!"count"]) (.int 0)) (.block (.tail (.assign (.path [n!"key"]) (.meth (.path [n!"out_tree"]) n!"push"
      (.cons (.path [n!"Reference", n!"OrderedChoice"]) (.cons (.call [n!"Some"] (.cons (.path [n!"last_key"]) .nil)) (.cons (.call
      [n!"Some"] (.cons (.path [n!"key"]) .nil)) .nil))))))) (.tuple .nil))
    (.exprS (.addAssign (.path [n!"count"]) (.int 1))
    (.exprS (.assign (.path [n!"last_key"]) (.path [n!"key"]))
    .nil))))) (.cons .wild (.mac n!"panic" .nil) .nil))))))
    (.tail (.path [n!"last_key"])))))))⟩

/-- generator/src/constructor.rs:403 -/
def GeneratedCode.sequence : Fn :=
  ⟨(some n!"GeneratedCode"), n!"sequence", .none, [(n!"hooked_call_imports_required", true), (n!"left_recursive_rules", false),
      (n!"out_tree", true), (n!"symbol_table", false), (n!"tree", false), (n!"source", false), (n!"index", false)], some (.block (.letS
      (.var n!"oc_node") (.meth (.path [n!"tree"]) n!"get_node" (.cons (.path [n!"index"]) .nil))
    (.letS (.var n!"count") (.int 0)
    (.letS (.var n!"last_key") (.call [n!"Key"] (.cons (.int 0) .nil))
    (.exprS (.forIn (.var n!"i") (.meth (.path [n!"oc_node"]) n!"get_children" .nil) (.block (.tail (.mtch (.field (.meth (.path [n!"tree"])
      n!"get_node" (.cons (.path [n!"i"]) .nil)) n!"rule") (.cons (.variants [(n!"Rules", n!"Atom")]) (.block (.letS (.var n!"key") (.call
      [n!"GeneratedCode", n!"atom"] (.cons (.path [n!"hooked_call_imports_required"]) (.cons (.path [n!"left_recursive_rules"]) (.cons
      (.path [n!"out_tree"]) (.cons (.path [n!"symbol_table"]) (.cons (.path [n!"tree"]) (.cons (.path [n!"source"]) (.cons (.path [n!"i"])
      .nil))))))))
    (.exprS (.ite (.bin .ne (.path [n!"count"]) (.int 0)) (.block (.exprS (.assign (.path [n!"key"]) (.meth (.path [n!"out_tree"]) n!"push"
      (.cons (.path [n!"Reference", n!"Sequence"]) (.cons (.call [n!"Some"] (.cons (.path [n!"last_key"]) .nil)) (.cons (.call [n!"Some"]
      (.cons (.path [n!"key"]) .nil)) .nil)))))
    .nil)) (.tuple .nil))
    (.exprS (.addAssign (.path [n!"count"]) (.int 1))
    (.exprS (.assign (.path [n!"last_key"]) (.path [n!"key"]))
    .nil))))) (.cons .wild (.mac n!"panic" .nil) .nil))))))
    (.tail (.path [n!"last_key"])))))))⟩

/-- generator/src/constructor.rs:442 -/
def GeneratedCode.atom : Fn :=
  ⟨(some n!"GeneratedCode"), n!"atom", .none, [(n!"hooked_call_imports_required", true), (n!"left_recursive_rules", false), (n!"out_tree",
      true), (n!"symbol_table", false), (n!"tree", false), (n!"source", false), (n!"index", false)], some (.block (.letS (.var n!"node")
      (.meth (.path [n!"tree"]) n!"get_node" (.cons (.path [n!"index"]) .nil))
    (.letS (.var n!"ret_key") (.call [n!"Key"] (.cons (.int 0) .nil))
    (.exprS (.forIn (.var n!"i") (.meth (.path [n!"node"]) n!"get_children" .nil) (.block (.tail (.mtch (.field (.meth (.path [n!"tree"])
      n!"get_node" (.cons (.path [n!"i"]) .nil)) n!"rule") (.cons (.variants [(n!"Rules", n!"And_Predicate")]) (.block (.exprS (.assign
      (.path [n!"ret_key"]) (.call [n!"GeneratedCode", n!"and_predicate"] (.cons (.path [n!"hooked_call_imports_required"]) (.cons (.path
      [n!"left_recursive_rules"]) (.cons (.path [n!"out_tree"]) (.cons (.path [n!"symbol_table"]) (.cons (.path [n!"tree"]) (.cons (.path
      [n!"source"]) (.cons (.path [n!"i"]) .nil)))))))))
    .nil)) (.cons (.variants [(n!"Rules", n!"Not_Predicate")]) (.block (.exprS (.assign (.path [n!"ret_key"]) (.call [n!"GeneratedCode",
      n!"not_predicate"] (.cons (.path [n!"hooked_call_imports_required"]) (.cons (.path [n!"left_recursive_rules"]) (.cons (.path
      [n!"out_tree"]) (.cons (.path [n!"symbol_table"]) (.cons (.path [n!"tree"]) (.cons (.path [n!"source"]) (.cons (.path [n!"i"])
      .nil)))))))))
    .nil)) (.cons (.variants [(n!"Rules", n!"One_Or_More")]) (.block (.exprS (.assign (.path [n!"ret_key"]) (.call [n!"GeneratedCode",
      n!"one_or_more"] (.cons (.path [n!"hooked_call_imports_required"]) (.cons (.path [n!"left_recursive_rules"]) (.cons (.path
      [n!"out_tree"]) (.cons (.path [n!"symbol_table"]) (.cons (.path [n!"tree"]) (.cons (.path [n!"source"]) (.cons (.path [n!"i"])
      .nil)))))))))
    .nil)) (.cons (.variants [(n!"Rules", n!"Zero_Or_More")]) (.block (.exprS (.assign (.path [n!"ret_key"]) (.call [n!"GeneratedCode",
      n!"zero_or_more"] (.cons (.path [n!"hooked_call_imports_required"]) (.cons (.path [n!"left_recursive_rules"]) (.cons (.path
      [n!"out_tree"]) (.cons (.path [n!"symbol_table"]) (.cons (.path [n!"tree"]) (.cons (.path [n!"source"]) (.cons (.path [n!"i"])
      .nil)))))))))
    .nil)) (.cons (.variants [(n!"Rules", n!"Optional")]) (.block (.exprS (.assign (.path [n!"ret_key"]) (.call [n!"GeneratedCode",
      n!"optional"] (.cons (.path [n!"hooked_call_imports_required"]) (.cons (.path [n!"left_recursive_rules"]) (.cons (.path
      [n!"out_tree"]) (.cons (.path [n!"symbol_table"]) (.cons (.path [n!"tree"]) (.cons (.path [n!"source"]) (.cons (.path [n!"i"])
      .nil)))))))))
    .nil)) (.cons (.variants [(n!"Rules", n!"Nucleus")]) (.block (.exprS (.assign (.path [n!"ret_key"]) (.call [n!"GeneratedCode",
      n!"nucleus"] (.cons (.path [n!"hooked_call_imports_required"]) (.cons (.path [n!"left_recursive_rules"]) (.cons (.path [n!"out_tree"])
      (.cons (.path [n!"symbol_table"]) (.cons (.path [n!"tree"]) (.cons (.path [n!"source"]) (.cons (.path [n!"i"]) .nil)))))))))
    .nil)) (.cons .wild (.mac n!"panic" .nil) .nil)))))))))))
    (.tail (.path [n!"ret_key"]))))))⟩

/-- generator/src/constructor.rs:530 -/
def GeneratedCode.optional : Fn :=
  ⟨(some n!"GeneratedCode"), n!"optional", .none, [(n!"hooked_call_imports_required", true), (n!"left_recursive_rules", false),
      (n!"out_tree", true), (n!"symbol_table", false), (n!"tree", false), (n!"source", false), (n!"index", false)], some (.block (.letS
      (.var n!"node") (.meth (.path [n!"tree"]) n!"get_node" (.cons (.path [n!"index"]) .nil))
    (.letS (.var n!"ret_key") (.call [n!"Key"] (.cons (.int 0) .nil))
    (.exprS (.forIn (.var n!"i") (.meth (.path [n!"node"]) n!"get_children" .nil) (.block (.tail (.mtch (.field (.meth (.path [n!"tree"])
      n!"get_node" (.cons (.path [n!"i"]) .nil)) n!"rule") (.cons (.variants [(n!"Rules", n!"Nucleus")]) (.block (.letS (.var n!"key")
      (.call [n!"GeneratedCode", n!"nucleus"] (.cons (.path [n!"hooked_call_imports_required"]) (.cons (.path [n!"left_recursive_rules"])
      (.cons (.path [n!"out_tree"]) (.cons (.path [n!"symbol_table"]) (.cons (.path [n!"tree"]) (.cons (.path [n!"source"]) (.cons (.path
      [n!"i"]) .nil))))))))
    (.tail (.assign (.path [n!"ret_key"]) (.meth (.path [n!"out_tree"]) n!"push" (.cons (.path [n!"Reference", n!"Optional"]) (.cons (.call
      [n!"Some"] (.cons (.path [n!"key"]) .nil)) (.cons (.path [n!"None"]) .nil)))))))) (.cons .wild (.mac n!"panic" .nil) .nil))))))
    (.tail (.path [n!"ret_key"]))))))⟩

/-- generator/src/constructor.rs:564 -/
def GeneratedCode.one_or_more : Fn :=
  ⟨(some n!"GeneratedCode"), n!"one_or_more", .none, [(n!"hooked_call_imports_required", true), (n!"left_recursive_rules", false),
      (n!"out_tree", true), (n!"symbol_table", false), (n!"tree", false), (n!"source", false), (n!"index", false)], some (.block (.letS
      (.var n!"node") (.meth (.path [n!"tree"]) n!"get_node" (.cons (.path [n!"index"]) .nil))
    (.letS (.var n!"ret_key") (.call [n!"Key"] (.cons (.int 0) .nil))
    (.exprS (.forIn (.var n!"i") (.meth (.path [n!"node"]) n!"get_children" .nil) (.block (.tail (.mtch (.field (.meth (.path [n!"tree"])
      n!"get_node" (.cons (.path [n!"i"]) .nil)) n!"rule") (.cons (.variants [(n!"Rules", n!"Nucleus")]) (.block (.letS (.var n!"key")
      (.call [n!"GeneratedCode", n!"nucleus"] (.cons (.path [n!"hooked_call_imports_required"]) (.cons (.path [n!"left_recursive_rules"])
      (.cons (.path [n!"out_tree"]) (.cons (.path [n!"symbol_table"]) (.cons (.path [n!"tree"]) (.cons (.path [n!"source"]) (.cons (.path
      [n!"i"]) .nil))))))))
    (.tail (.assign (.path [n!"ret_key"]) (.meth (.path [n!"out_tree"]) n!"push" (.cons (.path [n!"Reference", n!"OneOrMore"]) (.cons (.call
      [n!"Some"] (.cons (.path [n!"key"]) .nil)) (.cons (.path [n!"None"]) .nil)))))))) (.cons .wild (.mac n!"panic" .nil) .nil))))))
    (.tail (.path [n!"ret_key"]))))))⟩

/-- generator/src/constructor.rs:598 -/
def GeneratedCode.zero_or_more : Fn :=
  ⟨(some n!"GeneratedCode"), n!"zero_or_more", .none, [(n!"hooked_call_imports_required", true), (n!"left_recursive_rules", false),
      (n!"out_tree", true), (n!"symbol_table", false), (n!"tree", false), (n!"source", false), (n!"index", false)], some (.block (.letS
      (.var n!"node") (.meth (.path [n!"tree"]) n!"get_node" (.cons (.path [n!"index"]) .nil))
    (.letS (.var n!"ret_key") (.call [n!"Key"] (.cons (.int 0) .nil))
    (.exprS (.forIn (.var n!"i") (.meth (.path [n!"node"]) n!"get_children" .nil) (.block (.tail (.mtch (.field (.meth (.path [n!"tree"])
      n!"get_node" (.cons (.path [n!"i"]) .nil)) n!"rule") (.cons (.variants [(n!"Rules", n!"Nucleus")]) (.block (.letS (.var n!"key")
      (.call [n!"GeneratedCode", n!"nucleus"] (.cons (.path [n!"hooked_call_imports_required"]) (.cons (.path [n!"left_recursive_rules"])
      (.cons (.path [n!"out_tree"]) (.cons (.path [n!"symbol_table"]) (.cons (.path [n!"tree"]) (.cons (.path [n!"source"]) (.cons (.path
      [n!"i"]) .nil))))))))
    (.tail (.assign (.path [n!"ret_key"]) (.meth (.path [n!"out_tree"]) n!"push" (.cons (.path [n!"Reference", n!"ZeroOrMore"]) (.cons
      (.call [n!"Some"] (.cons (.path [n!"key"]) .nil)) (.cons (.path [n!"None"]) .nil)))))))) (.cons .wild (.mac n!"panic" .nil) .nil))))))
    (.tail (.path [n!"ret_key"]))))))⟩

/-- generator/src/constructor.rs:633 -/
def GeneratedCode.and_predicate : Fn :=
  ⟨(some n!"GeneratedCode"), n!"and_predicate", .none, [(n!"hooked_call_imports_required", true), (n!"left_recursive_rules", false),
      (n!"out_tree", true), (n!"symbol_table", false), (n!"tree", false), (n!"source", false), (n!"index", false)], some (.block (.letS
      (.var n!"node") (.meth (.path [n!"tree"]) n!"get_node" (.cons (.path [n!"index"]) .nil))
    (.letS (.var n!"ret_key") (.call [n!"Key"] (.cons (.int 0) .nil))
    (.exprS (.forIn (.var n!"i") (.meth (.path [n!"node"]) n!"get_children" .nil) (.block (.tail (.mtch (.field (.meth (.path [n!"tree"])
      n!"get_node" (.cons (.path [n!"i"]) .nil)) n!"rule") (.cons (.variants [(n!"Rules", n!"Nucleus")]) (.block (.letS (.var n!"key")
      (.call [n!"GeneratedCode", n!"nucleus"] (.cons (.path [n!"hooked_call_imports_required"]) (.cons (.path [n!"left_recursive_rules"])
      (.cons (.path [n!"out_tree"]) (.cons (.path [n!"symbol_table"]) (.cons (.path [n!"tree"]) (.cons (.path [n!"source"]) (.cons (.path
      [n!"i"]) .nil))))))))
    (.exprS (.assign (.path [n!"ret_key"]) (.meth (.path [n!"out_tree"]) n!"push" (.cons (.path [n!"Reference", n!"AndPredicate"]) (.cons
      (.call [n!"Some"] (.cons (.path [n!"key"]) .nil)) (.cons (.path [n!"None"]) .nil)))))
    .nil))) (.cons .wild (.mac n!"panic" .nil) .nil))))))
    (.tail (.path [n!"ret_key"]))))))⟩

/-- generator/src/constructor.rs:668 -/
def GeneratedCode.not_predicate : Fn :=
  ⟨(some n!"GeneratedCode"), n!"not_predicate", .none, [(n!"hooked_call_imports_required", true), (n!"left_recursive_rules", false),
      (n!"out_tree", true), (n!"symbol_table", false), (n!"tree", false), (n!"source", false), (n!"index", false)], some (.block (.letS
      (.var n!"node") (.meth (.path [n!"tree"]) n!"get_node" (.cons (.path [n!"index"]) .nil))
    (.letS (.var n!"ret_key") (.call [n!"Key"] (.cons (.int 0) .nil))
    (.exprS (.forIn (.var n!"i") (.meth (.path [n!"node"]) n!"get_children" .nil) (.block (.tail (.mtch (.field (.meth (.path [n!"tree"])
      n!"get_node" (.cons (.path [n!"i"]) .nil)) n!"rule") (.cons (.variants [(n!"Rules", n!"Nucleus")]) (.block (.letS (.var n!"key")
      (.call [n!"GeneratedCode", n!"nucleus"] (.cons (.path [n!"hooked_call_imports_required"]) (.cons (.path [n!"left_recursive_rules"])
      (.cons (.path [n!"out_tree"]) (.cons (.path [n!"symbol_table"]) (.cons (.path [n!"tree"]) (.cons (.path [n!"source"]) (.cons (.path
      [n!"i"]) .nil))))))))
    (.tail (.assign (.path [n!"ret_key"]) (.meth (.path [n!"out_tree"]) n!"push" (.cons (.path [n!"Reference", n!"NotPredicate"]) (.cons
      (.call [n!"Some"] (.cons (.path [n!"key"]) .nil)) (.cons (.path [n!"None"]) .nil)))))))) (.cons .wild (.mac n!"panic" .nil) .nil))))))
    (.tail (.path [n!"ret_key"]))))))⟩

/-- generator/src/constructor.rs:702 -/
def GeneratedCode.nucleus : Fn :=
  ⟨(some n!"GeneratedCode"), n!"nucleus", .none, [(n!"hooked_call_imports_required", true), (n!"left_recursive_rules", false),
      (n!"out_tree", true), (n!"symbol_table", false), (n!"tree", false), (n!"source", false), (n!"index", false)], some (.block (.letS
      (.var n!"node") (.meth (.path [n!"tree"]) n!"get_node" (.cons (.path [n!"index"]) .nil))
    (.letS (.var n!"ret_key") (.call [n!"Key"] (.cons (.int 0) .nil))
    (.exprS (.forIn (.var n!"i") (.meth (.path [n!"node"]) n!"get_children" .nil) (.block (.letS (.var n!"child_rule") (.field (.meth (.path
      [n!"tree"]) n!"get_node" (.cons (.path [n!"i"]) .nil)) n!"rule")
    (.tail (.mtch (.path [n!"child_rule"]) (.cons (.variants [(n!"Rules", n!"Subexpression")]) (.block (.exprS (.assign (.path
      [n!"ret_key"]) (.call [n!"GeneratedCode", n!"subexpression"] (.cons (.path [n!"hooked_call_imports_required"]) (.cons (.path
      [n!"left_recursive_rules"]) (.cons (.path [n!"out_tree"]) (.cons (.path [n!"symbol_table"]) (.cons (.path [n!"tree"]) (.cons (.path
      [n!"source"]) (.cons (.path [n!"i"]) .nil)))))))))
    .nil)) (.cons (.variants [(n!"Rules", n!"Terminal")]) (.block (.exprS (.assign (.path [n!"ret_key"]) (.call [n!"GeneratedCode",
      n!"terminal"] (.cons (.path [n!"out_tree"]) (.cons (.path [n!"symbol_table"]) (.cons (.path [n!"tree"]) (.cons (.path [n!"source"])
      (.cons (.path [n!"i"]) .nil)))))))
    .nil)) (.cons (.variants [(n!"Rules", n!"Var_Name_Ref")]) (.block (.exprS (.assign (.path [n!"ret_key"]) (.call [n!"GeneratedCode",
      n!"var_name"] (.cons (.path [n!"left_recursive_rules"]) (.cons (.path [n!"out_tree"]) (.cons (.path [n!"symbol_table"]) (.cons (.path
      [n!"tree"]) (.cons (.path [n!"source"]) (.cons (.path [n!"i"]) .nil))))))))
    .nil)) (.cons (.variants [(n!"Rules", n!"OrderedChoiceMatchRange")]) (.block (.tail (.assign (.path [n!"ret_key"]) (.call
      [n!"GeneratedCode", n!"ordered_choice_match_range"] (.cons (.path [n!"out_tree"]) (.cons (.path [n!"symbol_table"]) (.cons (.path
      [n!"tree"]) (.cons (.path [n!"source"]) (.cons (.path [n!"i"]) .nil))))))))) (.cons (.variants [(n!"Rules", n!"StringTerminal")])
      (.block (.exprS (.assign (.path [n!"ret_key"]) (.call [n!"GeneratedCode", n!"string_terminal"] (.cons (.path [n!"out_tree"]) (.cons
      (.path [n!"symbol_table"]) (.cons (.path [n!"tree"]) (.cons (.path [n!"source"]) (.cons (.path [n!"i"]) .nil)))))))
    .nil)) (.cons (.variants [(n!"Rules", n!"Hooked_Call")]) (.block (.exprS (.assign (.path [n!"ret_key"]) (.call [n!"GeneratedCode",
      n!"hooked_call"] (.cons (.path [n!"hooked_call_imports_required"]) (.cons (.path [n!"left_recursive_rules"]) (.cons (.path
      [n!"out_tree"]) (.cons (.path [n!"symbol_table"]) (.cons (.path [n!"tree"]) (.cons (.path [n!"source"]) (.cons (.path [n!"i"])
      .nil)))))))))
    .nil)) (.cons .wild (.block (.letS (.var n!"err_msg") (.fmt [.lit (utf8Of "nucleus, Rule: "), .dbgVar n!"child_rule", .lit (utf8Of "")]
      .nil)
    (.exprS (.call [n!"panic_any"] (.cons (.path [n!"err_msg"]) .nil))
    .nil))) .nil))))))))))))
    (.tail (.path [n!"ret_key"]))))))⟩

/-- generator/src/constructor.rs:768 -/
def GeneratedCode.hooked_call : Fn :=
  ⟨(some n!"GeneratedCode"), n!"hooked_call", .none, [(n!"hooked_call_imports_required", true), (n!"left_recursive_rules", false),
      (n!"out_tree", true), (n!"symbol_table", false), (n!"tree", false), (n!"source", false), (n!"index", false)], some (.block (.letS
      (.var n!"node") (.meth (.path [n!"tree"]) n!"get_node" (.cons (.path [n!"index"]) .nil))
    (.letS (.var n!"child") (.index (.meth (.path [n!"node"]) n!"get_children" .nil) (.int 0))
    (.letS (.var n!"child_node") (.meth (.path [n!"tree"]) n!"get_node" (.cons (.path [n!"child"]) .nil))
    (.letS (.var n!"var_name") (.slice (.path [n!"source"]) (.cast (.field (.path [n!"node"]) n!"start_position") n!"usize") (.cast (.bin
      .sub (.field (.path [n!"child_node"]) n!"start_position") (.int 1)) n!"usize"))
    (.exprS (.meth (.path [n!"hooked_call_imports_required"]) n!"push" (.cons (.meth (.path [n!"var_name"]) n!"to_string" .nil) .nil))
    (.letS (.var n!"subexpr") (.call [n!"GeneratedCode", n!"subexpression"] (.cons (.path [n!"hooked_call_imports_required"]) (.cons (.path
      [n!"left_recursive_rules"]) (.cons (.path [n!"out_tree"]) (.cons (.path [n!"symbol_table"]) (.cons (.path [n!"tree"]) (.cons (.path
      [n!"source"]) (.cons (.path [n!"index"]) .nil))))))))
    (.tail (.meth (.path [n!"out_tree"]) n!"push" (.cons (.call [n!"Reference", n!"HookedCall"] (.cons (.meth (.path [n!"var_name"])
      n!"to_string" .nil) .nil)) (.cons (.call [n!"Some"] (.cons (.path [n!"subexpr"]) .nil)) (.cons (.path [n!"None"]) .nil))))))))))))⟩

/-- generator/src/constructor.rs:810 -/
def GeneratedCode.string_terminal : Fn :=
  ⟨(some n!"GeneratedCode"), n!"string_terminal", .none, [(n!"out_tree", true), (n!"_symbol_table", false), (n!"tree", false), (n!"source",
      false), (n!"index", false)], some (.block (.letS (.var n!"node") (.meth (.path [n!"tree"]) n!"get_node" (.cons (.path [n!"index"])
      .nil))
    (.letS (.var n!"data") (.call [n!"Vec", n!"new"] .nil)
    (.exprS (.forIn (.var n!"i") (.meth (.path [n!"node"]) n!"get_children" .nil) (.block (.letS (.var n!"child_node") (.meth (.path
      [n!"tree"]) n!"get_node" (.cons (.path [n!"i"]) .nil))
    (.letS (.var n!"child_rule") (.field (.path [n!"child_node"]) n!"rule")
    (.tail (.mtch (.path [n!"child_rule"]) (.cons (.variants [(n!"Rules", n!"ASCII")]) (.block (.letS (.var n!"contents") (.index (.slice
      (.meth (.path [n!"source"]) n!"as_bytes" .nil) (.cast (.field (.path [n!"child_node"]) n!"start_position") n!"usize") (.cast (.field
      (.path [n!"child_node"]) n!"end_position") n!"usize")) (.int 0))
    (.exprS (.meth (.path [n!"data"]) n!"push" (.cons (.cast (.path [n!"contents"]) n!"char") .nil))
    .nil))) (.cons (.variants [(n!"Rules", n!"Integer")]) (.block (.tail (.mac n!"panic" .nil))) (.cons (.variants [(n!"Rules", n!"Hex")])
      (.block (.letS (.var n!"contents") (.slice (.path [n!"source"]) (.cast (.bin .add (.field (.path [n!"child_node"]) n!"start_position")
      (.int 2)) n!"usize") (.cast (.field (.path [n!"child_node"]) n!"end_position") n!"usize"))
    (.letS (.var n!"char") (.call [n!"u32", n!"from_str_radix"] (.cons (.path [n!"contents"]) (.cons (.int 16) .nil)))
    (.exprS (.meth (.path [n!"data"]) n!"push" (.cons (.meth (.call [n!"char", n!"from_u32"] (.cons (.meth (.path [n!"char"]) n!"expect"
      (.cons (.str (utf8Of "Failed to parse hex correctly")) .nil)) .nil)) n!"expect" (.cons (.str (utf8Of "Should be valid codepoint"))
      .nil)) .nil))
    .nil)))) (.cons .wild (.block (.letS (.var n!"err_msg") (.fmt [.lit (utf8Of "string_terminal, Rule: "), .dbgVar n!"child_rule", .lit
      (utf8Of "")] .nil)
    (.exprS (.call [n!"panic_any"] (.cons (.path [n!"err_msg"]) .nil))
    .nil))) .nil))))))))))
    (.letS (.var n!"all_ascii") (.bool true)
    (.exprS (.forIn (.var n!"char") (.path [n!"data"]) (.block (.tail (.ite (.bin .ne (.meth (.path [n!"char"]) n!"len_utf8" .nil) (.int 1))
      (.block (.exprS (.assign (.path [n!"all_ascii"]) (.bool false))
    .nil)) (.tuple .nil)))))
    (.tail (.ite (.path [n!"all_ascii"]) (.block (.tail (.meth (.path [n!"out_tree"]) n!"push" (.cons (.call [n!"Reference",
      n!"StringTerminalAsciiOpt"] (.cons (.path [n!"data"]) .nil)) (.cons (.path [n!"None"]) (.cons (.path [n!"None"]) .nil)))))) (.block
      (.tail (.meth (.path [n!"out_tree"]) n!"push" (.cons (.call [n!"Reference", n!"StringTerminal"] (.cons (.path [n!"data"]) .nil))
      (.cons (.path [n!"None"]) (.cons (.path [n!"None"]) .nil))))))))))))))⟩

/-- generator/src/constructor.rs:859 -/
def GeneratedCode.ordered_choice_match_range : Fn :=
  ⟨(some n!"GeneratedCode"), n!"ordered_choice_match_range", .none, [(n!"out_tree", true), (n!"_symbol_table", false), (n!"tree", false),
      (n!"source", false), (n!"index", false)], some (.block (.letS (.var n!"node") (.meth (.path [n!"tree"]) n!"get_node" (.cons (.path
      [n!"index"]) .nil))
    (.letS (.var n!"ret_key") (.call [n!"Key"] (.cons (.int 0) .nil))
    (.letS (.var n!"start_set") (.bool false)
    (.letS (.var n!"value_start") (.cast (.int 0) n!"u32")
    (.letU n!"value_end"
    (.exprS (.forIn (.var n!"i") (.meth (.path [n!"node"]) n!"get_children" .nil) (.block (.letS (.var n!"child_node") (.meth (.path
      [n!"tree"]) n!"get_node" (.cons (.path [n!"i"]) .nil))
    (.letS (.var n!"child_rule") (.field (.path [n!"child_node"]) n!"rule")
    (.tail (.mtch (.path [n!"child_rule"]) (.cons (.variants [(n!"Rules", n!"Terminal")]) (.block (.letS (.var n!"contents") (.meth (.slice
      (.path [n!"source"]) (.cast (.bin .add (.field (.path [n!"child_node"]) n!"start_position") (.int 1)) n!"usize") (.cast (.bin .sub
      (.field (.path [n!"child_node"]) n!"end_position") (.int 1)) n!"usize")) n!"to_string" .nil)
    (.tail (.ite (.not (.path [n!"start_set"])) (.block (.exprS (.assign (.path [n!"value_start"]) (.cast (.index (.meth (.path
      [n!"contents"]) n!"as_bytes" .nil) (.int 0)) n!"u32"))
    (.exprS (.assign (.path [n!"start_set"]) (.bool true))
    .nil))) (.block (.exprS (.assign (.path [n!"value_end"]) (.cast (.index (.meth (.path [n!"contents"]) n!"as_bytes" .nil) (.int 0))
      n!"u32"))
    (.tail (.assign (.path [n!"ret_key"]) (.meth (.path [n!"out_tree"]) n!"push" (.cons (.call [n!"Reference", n!"OrderedChoiceMatchRange"]
      (.cons (.path [n!"value_start"]) (.cons (.path [n!"value_end"]) .nil))) (.cons (.path [n!"None"]) (.cons (.path [n!"None"])
      .nil)))))))))))) (.cons (.variants [(n!"Rules", n!"Integer")]) (.block (.tail (.mac n!"panic" .nil))) (.cons (.variants [(n!"Rules",
      n!"Hex")]) (.block (.letS (.var n!"contents") (.meth (.slice (.path [n!"source"]) (.cast (.bin .add (.field (.path [n!"child_node"])
      n!"start_position") (.int 2)) n!"usize") (.cast (.field (.path [n!"child_node"]) n!"end_position") n!"usize")) n!"to_string" .nil)
    (.letS (.var n!"f") (.mtch (.call [n!"u32", n!"from_str_radix"] (.cons (.path [n!"contents"]) (.cons (.int 16) .nil))) (.cons .none
      (.block (.tail (.mac n!"panic" .nil))) (.cons (.some n!"value") (.path [n!"value"]) .nil)))
    (.tail (.ite (.not (.path [n!"start_set"])) (.block (.exprS (.assign (.path [n!"value_start"]) (.path [n!"f"]))
    (.exprS (.assign (.path [n!"start_set"]) (.bool true))
    .nil))) (.block (.exprS (.assign (.path [n!"value_end"]) (.path [n!"f"]))
    (.tail (.assign (.path [n!"ret_key"]) (.meth (.path [n!"out_tree"]) n!"push" (.cons (.call [n!"Reference", n!"OrderedChoiceMatchRange"]
      (.cons (.path [n!"value_start"]) (.cons (.path [n!"value_end"]) .nil))) (.cons (.path [n!"None"]) (.cons (.path [n!"None"])
      .nil))))))))))))) (.cons .wild (.block (.letS (.var n!"err_msg") (.fmt [.lit (utf8Of "ordered choice match range, Rule: "), .dbgVar
      n!"child_rule", .lit (utf8Of "")] .nil)
    (.exprS (.call [n!"panic_any"] (.cons (.path [n!"err_msg"]) .nil))
    .nil))) .nil))))))))))
    (.tail (.path [n!"ret_key"])))))))))⟩

/-- generator/src/constructor.rs:928 -/
def GeneratedCode.subexpression : Fn :=
  ⟨(some n!"GeneratedCode"), n!"subexpression", .none, [(n!"hooked_call_imports_required", true), (n!"left_recursive_rules", false),
      (n!"out_tree", true), (n!"symbol_table", false), (n!"tree", false), (n!"source", false), (n!"index", false)], some (.block (.letS
      (.var n!"node") (.meth (.path [n!"tree"]) n!"get_node" (.cons (.path [n!"index"]) .nil))
    (.letS (.var n!"ret_key") (.call [n!"Key"] (.cons (.int 0) .nil))
    (.exprS (.forIn (.var n!"i") (.meth (.path [n!"node"]) n!"get_children" .nil) (.block (.tail (.mtch (.field (.meth (.path [n!"tree"])
      n!"get_node" (.cons (.path [n!"i"]) .nil)) n!"rule") (.cons (.variants [(n!"Rules", n!"RHS")]) (.block (.letS (.var n!"key") (.call
      [n!"GeneratedCode", n!"rhs"] (.cons (.path [n!"hooked_call_imports_required"]) (.cons (.path [n!"left_recursive_rules"]) (.cons (.path
      [n!"out_tree"]) (.cons (.path [n!"symbol_table"]) (.cons (.path [n!"tree"]) (.cons (.path [n!"source"]) (.cons (.path [n!"i"])
      .nil))))))))
    (.exprS (.assign (.path [n!"ret_key"]) (.meth (.path [n!"out_tree"]) n!"push" (.cons (.path [n!"Reference", n!"Subexpression"]) (.cons
      (.call [n!"Some"] (.cons (.path [n!"key"]) .nil)) (.cons (.path [n!"None"]) .nil)))))
    .nil))) (.cons .wild (.mac n!"panic" .nil) .nil))))))
    (.tail (.path [n!"ret_key"]))))))⟩

/-- generator/src/constructor.rs:960 -/
def GeneratedCode.var_name : Fn :=
  ⟨(some n!"GeneratedCode"), n!"var_name", .none, [(n!"left_recursive_rules", false), (n!"out_tree", true), (n!"symbol_table", false),
      (n!"tree", false), (n!"source", false), (n!"index", false)], some (.block (.letS (.var n!"node") (.meth (.path [n!"tree"])
      n!"get_node" (.cons (.path [n!"index"]) .nil))
    (.letS (.var n!"var_name") (.meth (.slice (.path [n!"source"]) (.cast (.bin .add (.field (.path [n!"node"]) n!"start_position") (.int
      1)) n!"usize") (.cast (.bin .sub (.field (.path [n!"node"]) n!"end_position") (.int 1)) n!"usize")) n!"to_string" .nil)
    (.exprS (.mac n!"println" .nil)
    (.letS (.var n!"is_left_recursive") (.meth (.meth (.path [n!"left_recursive_rules"]) n!"get_left_recursion_rules" .nil) n!"get" (.cons
      (.path [n!"var_name"]) .nil))
    (.exprS (.mac n!"println" .nil)
    (.tail (.ite (.meth (.path [n!"is_left_recursive"]) n!"is_some" .nil) (.block (.letS (.var n!"contents") (.meth (.path [n!"var_name"])
      n!"to_string" .nil)
    (.letS (.var n!"involved_set") (.meth (.meth (.path [n!"left_recursive_rules"]) n!"get_left_recursion_rules" .nil) n!"get" (.cons (.path
      [n!"var_name"]) .nil))
    (.tail (.mtch (.path [n!"involved_set"]) (.cons .none (.block (.tail (.mac n!"panic" .nil))) (.cons (.some n!"involved_set") (.block
      (.letS (.var n!"involved_set") (.meth (.path [n!"involved_set"]) n!"clone" .nil)
    (.letS (.var n!"involved_set") (.meth (.each (.meth (.path [n!"involved_set"]) n!"into_iter" .nil) n!"rule_name" (.block (.letS (.var
      n!"start_char") (.meth (.meth (.meth (.path [n!"rule_name"]) n!"chars" .nil) n!"nth" (.cons (.int 0) .nil)) n!"expect" (.cons (.str
      (utf8Of "Should exist")) .nil))
    (.letS (.var n!"start_char") (.meth (.meth (.path [n!"start_char"]) n!"to_uppercase" .nil) n!"to_string" .nil)
    (.letS (.var n!"rule_name") (.bin .add (.path [n!"start_char"]) (.field (.meth (.meth (.path [n!"rule_name"]) n!"split_at_checked"
      (.cons (.int 1) .nil)) n!"unwrap" .nil) 1))
    (.tail (.path [n!"rule_name"]))))))) n!"collect" .nil)
    (.exprS (.meth (.path [n!"involved_set"]) n!"sort" .nil)
    (.tail (.meth (.path [n!"out_tree"]) n!"push" (.cons (.call [n!"Reference", n!"LeftRecursiveRule"] (.cons (.path [n!"contents"]) (.cons
      (.path [n!"involved_set"]) .nil))) (.cons (.path [n!"None"]) (.cons (.path [n!"None"]) .nil))))))))) .nil))))))) (.ite (.meth (.path
      [n!"symbol_table"]) n!"check_symbol_is_inline" (.cons (.path [n!"var_name"]) .nil)) (.block (.letS (.var n!"contents") (.meth (.path
      [n!"var_name"]) n!"to_string" .nil)
    (.tail (.meth (.path [n!"out_tree"]) n!"push" (.cons (.call [n!"Reference", n!"InlinedRule"] (.cons (.path [n!"contents"]) .nil)) (.cons
      (.path [n!"None"]) (.cons (.path [n!"None"]) .nil))))))) (.block (.letS (.var n!"contents") (.meth (.path [n!"var_name"])
      n!"to_string" .nil)
    (.tail (.meth (.path [n!"out_tree"]) n!"push" (.cons (.call [n!"Reference", n!"VarName"] (.cons (.path [n!"contents"]) .nil)) (.cons
      (.path [n!"None"]) (.cons (.path [n!"None"]) .nil))))))))))))))))⟩

/-- generator/src/constructor.rs:1015 -/
def GeneratedCode.terminal : Fn :=
  ⟨(some n!"GeneratedCode"), n!"terminal", .none, [(n!"out_tree", true), (n!"_symbol_table", false), (n!"tree", false), (n!"source", false),
      (n!"index", false)], some (.block (.letS (.var n!"node") (.meth (.path [n!"tree"]) n!"get_node" (.cons (.path [n!"index"]) .nil))
    (.tail (.ite (.bin .eq (.bin .sub (.field (.path [n!"node"]) n!"end_position") (.field (.path [n!"node"]) n!"start_position")) (.int 2))
      (.block (.letS (.var n!"key1") (.meth (.path [n!"out_tree"]) n!"push" (.cons (.call [n!"Reference", n!"Terminal"] (.cons (.meth (.str
      (utf8Of "\"")) n!"to_string" .nil) .nil)) (.cons (.path [n!"None"]) (.cons (.path [n!"None"]) .nil))))
    (.letS (.var n!"key2") (.meth (.path [n!"out_tree"]) n!"push" (.cons (.call [n!"Reference", n!"Terminal"] (.cons (.meth (.str
      (utf8Of "\"")) n!"to_string" .nil) .nil)) (.cons (.path [n!"None"]) (.cons (.path [n!"None"]) .nil))))
    (.tail (.meth (.path [n!"out_tree"]) n!"push" (.cons (.path [n!"Reference", n!"Sequence"]) (.cons (.call [n!"Some"] (.cons (.path
      [n!"key1"]) .nil)) (.cons (.call [n!"Some"] (.cons (.path [n!"key2"]) .nil)) .nil)))))))) (.block (.letS (.var n!"contents") (.meth
      (.slice (.path [n!"source"]) (.cast (.bin .add (.field (.path [n!"node"]) n!"start_position") (.int 1)) n!"usize") (.cast (.bin .sub
      (.field (.path [n!"node"]) n!"end_position") (.int 1)) n!"usize")) n!"to_string" .nil)
    (.exprS (.ite (.bin .eq (.path [n!"contents"]) (.str (utf8Of "\\"))) (.block (.exprS (.assign (.path [n!"contents"]) (.meth (.str
      (utf8Of "\\\\")) n!"to_string" .nil))
    .nil)) (.ite (.bin .eq (.path [n!"contents"]) (.str (utf8Of "'"))) (.block (.exprS (.assign (.path [n!"contents"]) (.meth (.str
      (utf8Of "\\'")) n!"to_string" .nil))
    .nil)) (.tuple .nil)))
    (.letS (.var n!"contents") (.meth (.path [n!"contents"]) n!"to_string" .nil)
    (.tail (.meth (.path [n!"out_tree"]) n!"push" (.cons (.call [n!"Reference", n!"Terminal"] (.cons (.path [n!"contents"]) .nil)) (.cons
      (.path [n!"None"]) (.cons (.path [n!"None"]) .nil)))))))))))))⟩

/-- The items of generator/src/constructor.rs. -/
def constructorItems : List Item :=
  [.fn GeneratedCode.new, .fn GeneratedCode.sample_main_header, .fn GeneratedCode.parser_file_content, .fn
   GeneratedCode.rules_enum_file_content, .fn GeneratedCode.print, .fn GeneratedCode.generate, .fn GeneratedCode.generate_rules_enum, .fn
   GeneratedCode.match_rule, .fn GeneratedCode.rule, .fn GeneratedCode.lhs, .fn GeneratedCode.comment, .fn GeneratedCode.rhs, .fn
   GeneratedCode.ordered_choice, .fn GeneratedCode.sequence, .fn GeneratedCode.atom, .fn GeneratedCode.optional, .fn
   GeneratedCode.one_or_more, .fn GeneratedCode.zero_or_more, .fn GeneratedCode.and_predicate, .fn GeneratedCode.not_predicate, .fn
   GeneratedCode.nucleus, .fn GeneratedCode.hooked_call, .fn GeneratedCode.string_terminal, .fn GeneratedCode.ordered_choice_match_range,
   .fn GeneratedCode.subexpression, .fn GeneratedCode.var_name, .fn GeneratedCode.terminal]

/-- generator/src/lib.rs:14 -/
def count_lines : Fn :=
  ⟨none, n!"count_lines", .none, [(n!"source", false), (n!"start_position", false)], some (.block (.letS (.var n!"new_line_count") (.cast
      (.int 1) n!"u32")
    (.exprS (.forIn (.var n!"i") (.slice (.meth (.path [n!"source"]) n!"as_bytes" .nil) (.int 0) (.cast (.path [n!"start_position"])
      n!"usize")) (.block (.tail (.ite (.bin .eq (.path [n!"i"]) (.int 10)) (.block (.exprS (.addAssign (.path [n!"new_line_count"]) (.int
      1))
    .nil)) (.tuple .nil)))))
    (.tail (.path [n!"new_line_count"])))))⟩

/-- generator/src/lib.rs:25 -/
def generate_parser : Fn :=
  ⟨none, n!"generate_parser", .none, [(n!"source", false)], some (.block (.letS (.var n!"string") (.meth (.call [n!"read_to_string"] (.cons
      (.path [n!"source"]) .nil)) n!"expect" (.cons (.str (utf8Of "If it's moved change the string above")) .nil))
    (.letS (.var n!"string2") (.meth (.path [n!"string"]) n!"clone" .nil)
    (.letS (.var n!"src_len") (.meth (.path [n!"string"]) n!"len" .nil)
    (.letS (.var n!"source") (.call [n!"Source", n!"new"] (.cons (.path [n!"string"]) .nil))
    (.letS (.var n!"position") (.cast (.int 0) n!"u32")
    (.letS (.var n!"context") (.call [n!"BasicContext", n!"new"] (.cons (.path [n!"src_len"]) (.cons (.cast (.path [n!"RULES_SIZE"])
      n!"usize") .nil)))
    (.letS (.var n!"context") (.meth (.path [n!"context"]) n!"into" .nil)
    (.letS (.var n!"user_state") (.call [n!"RefCell", n!"new"] (.cons (.call [n!"UserState", n!"new"] .nil) .nil))
    (.letS (.var n!"result") (.call [n!"grammar"] (.cons (.path [n!"user_state"]) (.cons (.call [n!"Key"] (.cons (.int 0) .nil)) (.cons
      (.path [n!"context"]) (.cons (.path [n!"source"]) (.cons (.path [n!"position"]) .nil))))))
    (.exprS (.ite (.bin .ne (.field (.path [n!"result"]) 1) (.cast (.meth (.path [n!"string2"]) n!"len" .nil) n!"u32")) (.block (.exprS
      (.mac n!"println" (.cons (.call [n!"count_lines"] (.cons (.path [n!"string2"]) (.cons (.field (.path [n!"result"]) 1) .nil))) .nil))
    (.exprS (.ret (.path [n!"None"]))
    .nil))) (.block (.tail (.mac n!"println" .nil))))
    (.letS (.var n!"tree") (.meth (.path [n!"context"]) n!"into_inner" .nil)
    (.letS (.var n!"src") (.call [n!"String", n!"from"] (.cons (.path [n!"source"]) .nil))
    (.letS (.var n!"clean_tree") (.meth (.meth (.path [n!"tree"]) n!"get_publisher" .nil) n!"clear_false" .nil)
    (.letS (.var n!"sym_table") (.call [n!"SymbolTable", n!"new"] (.cons (.path [n!"clean_tree"]) (.cons (.path [n!"src"]) .nil)))
    (.letS (.var n!"cycles") (.call [n!"LeftRecursionDetector", n!"new"] (.cons (.path [n!"clean_tree"]) (.cons (.path [n!"src"]) .nil)))
    (.letS (.var n!"gen_code") (.call [n!"GeneratedCode", n!"new"] (.cons (.path [n!"cycles"]) (.cons (.path [n!"sym_table"]) (.cons (.path
      [n!"clean_tree"]) (.cons (.path [n!"src"]) .nil)))))
    (.tail (.call [n!"Some"] (.cons (.path [n!"gen_code"]) .nil))))))))))))))))))))⟩

/-- The items of generator/src/lib.rs. -/
def libItems : List Item :=
  [.fn count_lines, .fn generate_parser]

/-- The items of all of them. -/
def generator : List Item := keysItems ++ publisherItems ++ binaryWoItems ++ symbolTableItems ++ cycleDetectorItems ++ constructorItems ++ libItems

end PP.Rs.Ast
