import Verif.Spec.Mini.Syntax

/-! Generated by tools/core2lean.py: the syntax trees of the core files. -/
namespace PP.Mini.Ast

/-- parser/src/keys.rs:5 -/
def usize.from : Fn :=
  ⟨(some n!"usize"), n!"from", .none, [n!"i"], some (.block (.tail (.cast (.field (.path [n!"i"]) 0) n!"usize")))⟩

/-- The items of parser/src/keys.rs. -/
def keysItems : List Item :=
  [.tupleStruct n!"Key", .fn usize.from]

/-- parser/src/source.rs:7 -/
def String.from : Fn :=
  ⟨(some n!"String"), n!"from", .none, [n!"i"], some (.block (.tail (.meth (.field (.path [n!"i"]) n!"source") n!"to_string" .nil)))⟩

/-- parser/src/source.rs:12 -/
def String.from' : Fn :=
  ⟨(some n!"String"), n!"from", .none, [n!"i"], some (.block (.tail (.meth (.field (.path [n!"i"]) n!"source") n!"to_string" .nil)))⟩

/-- parser/src/source.rs:18 -/
def Source.new : Fn :=
  ⟨(some n!"Source"), n!"new", .none, [n!"source"], some (.block (.letS (.var n!"source_len") false (.cast (.meth (.path [n!"source"])
      n!"len" .nil) n!"u32")
    (.tail (.struct n!"Source" (.cons n!"source" (.path [n!"source"]) (.cons n!"source_len" (.path [n!"source_len"]) .nil))))))⟩

/-- parser/src/source.rs:23 -/
def Source.get_char : Fn :=
  ⟨(some n!"Source"), n!"get_char", .ref, [n!"position"], some (.block (.tail (.ite (.bin .lt (.path [n!"position"]) (.field (.path
      [n!"self"]) n!"source_len")) (.block (.letS (.var n!"src_chr") false (.index (.meth (.field (.path [n!"self"]) n!"source")
      n!"as_bytes" .nil) (.cast (.path [n!"position"]) n!"usize"))
    (.tail (.call (.path [n!"Some"]) (.cons (.path [n!"src_chr"]) .nil))))) (.block (.tail (.path [n!"None"]))))))⟩

/-- parser/src/source.rs:32 -/
def Source.get_multiple_chars : Fn :=
  ⟨(some n!"Source"), n!"get_multiple_chars", .ref, [n!"position", n!"number_of_chars"], some (.block (.tail (.ite (.bin .lt (.bin .add
      (.path [n!"position"]) (.path [n!"number_of_chars"])) (.field (.path [n!"self"]) n!"source_len")) (.block (.letS (.var n!"src_chrs")
      false (.ref (.slice (.meth (.field (.path [n!"self"]) n!"source") n!"as_bytes" .nil) (.cast (.path [n!"position"]) n!"usize") (.cast
      (.bin .add (.path [n!"position"]) (.path [n!"number_of_chars"])) n!"usize")))
    (.tail (.call (.path [n!"Some"]) (.cons (.path [n!"src_chrs"]) .nil))))) (.block (.tail (.path [n!"None"]))))))⟩

/-- parser/src/source.rs:41 -/
def Source.get_string : Fn :=
  ⟨(some n!"Source"), n!"get_string", .ref, [n!"start_position", n!"end_position"], some (.block (.tail (.ite (.bin .or (.bin .gt (.path
      [n!"start_position"]) (.field (.path [n!"self"]) n!"source_len")) (.bin .gt (.path [n!"end_position"]) (.field (.path [n!"self"])
      n!"source_len"))) (.block (.tail (.path [n!"None"]))) (.block (.tail (.call (.path [n!"Some"]) (.cons (.ref (.slice (.field (.path
      [n!"self"]) n!"source") (.cast (.path [n!"start_position"]) n!"usize") (.cast (.path [n!"end_position"]) n!"usize"))) .nil)))))))⟩

/-- parser/src/source.rs:49 -/
def Source.get_len : Fn :=
  ⟨(some n!"Source"), n!"get_len", .ref, [], some (.block (.tail (.field (.path [n!"self"]) n!"source_len")))⟩

/-- The items of parser/src/source.rs. -/
def sourceItems : List Item :=
  [.fn String.from, .fn String.from', .fn Source.new, .fn Source.get_char, .fn Source.get_multiple_chars, .fn Source.get_string, .fn
   Source.get_len]

/-- parser/src/cache.rs:21 -/
def BasicCache.default : Fn :=
  ⟨(some n!"BasicCache"), n!"default", .none, [], some (.block (.tail (.call (.path [n!"BasicCache", n!"new"]) .nil)))⟩

/-- parser/src/cache.rs:27 -/
def BasicCache.new : Fn :=
  ⟨(some n!"BasicCache"), n!"new", .none, [], some (.block (.tail (.struct n!"BasicCache" (.cons n!"cache" (.call (.path [n!"HashMap",
      n!"new"]) .nil) (.cons n!"heads" (.call (.path [n!"HashMap", n!"new"]) .nil) (.cons n!"current_active_left_recursion" (.path
      [n!"None"]) .nil))))))⟩

/-- parser/src/cache.rs:35 -/
def BasicCache.get_current_active_lr_position : Fn :=
  ⟨(some n!"BasicCache"), n!"get_current_active_lr_position", .ref, [], some (.block (.tail (.field (.path [n!"self"])
      n!"current_active_left_recursion")))⟩

/-- parser/src/cache.rs:38 -/
def BasicCache.set_current_active_lr_position : Fn :=
  ⟨(some n!"BasicCache"), n!"set_current_active_lr_position", .refMut, [n!"active_lr"], some (.block (.exprS (.assign (.field (.path
      [n!"self"]) n!"current_active_left_recursion") (.path [n!"active_lr"]))
    .nil))⟩

/-- parser/src/cache.rs:42 -/
def BasicCache.insert : Fn :=
  ⟨(some n!"BasicCache"), n!"insert", .refMut, [n!"rule", n!"is_true", n!"start_position", n!"end_position", n!"key"], some (.block (.exprS
      (.meth (.field (.path [n!"self"]) n!"cache") n!"insert" (.cons (.tuple (.cons (.path [n!"rule"]) (.cons (.path [n!"start_position"])
      .nil))) (.cons (.tuple (.cons (.path [n!"is_true"]) (.cons (.path [n!"end_position"]) (.cons (.path [n!"key"]) .nil)))) .nil)))
    .nil))⟩

/-- parser/src/cache.rs:53 -/
def BasicCache.check : Fn :=
  ⟨(some n!"BasicCache"), n!"check", .ref, [n!"rule", n!"start_position"], some (.block (.tail (.meth (.meth (.field (.path [n!"self"])
      n!"cache") n!"get" (.cons (.ref (.tuple (.cons (.path [n!"rule"]) (.cons (.path [n!"start_position"]) .nil)))) .nil)) n!"copied"
      .nil)))⟩

/-- parser/src/cache.rs:57 -/
def BasicCache.check_head : Fn :=
  ⟨(some n!"BasicCache"), n!"check_head", .ref, [n!"rule", n!"start_position"], some (.block (.letS (.var n!"head") false (.meth (.field
      (.path [n!"self"]) n!"heads") n!"get" (.cons (.ref (.tuple (.cons (.path [n!"rule"]) (.cons (.path [n!"start_position"]) .nil))))
      .nil))
    (.tail (.mtch (.path [n!"head"]) (.cons .none (.path [n!"None"]) (.cons (.some n!"head") (.call (.path [n!"Some"]) (.cons (.path
      [n!"head"]) .nil)) .nil))))))⟩

/-- parser/src/cache.rs:66 -/
def BasicCache.set_head : Fn :=
  ⟨(some n!"BasicCache"), n!"set_head", .refMut, [n!"start_position", n!"head_rule", n!"involved_set"], some (.block (.letS (.var
      n!"eval_set") false (.meth (.path [n!"involved_set"]) n!"clone" .nil)
    (.letS (.var n!"head") false (.struct n!"Head" (.cons n!"start_position" (.path [n!"start_position"]) (.cons
      n!"active_left_recursion_rule" (.path [n!"head_rule"]) (.cons n!"involved_set" (.path [n!"involved_set"]) (.cons n!"eval_set" (.path
      [n!"eval_set"]) .nil)))))
    (.exprS (.meth (.field (.path [n!"self"]) n!"heads") n!"insert" (.cons (.tuple (.cons (.path [n!"head_rule"]) (.cons (.path
      [n!"start_position"]) .nil))) (.cons (.path [n!"head"]) .nil)))
    .nil))))⟩

/-- parser/src/cache.rs:82 -/
def BasicCache.reinitialize_eval_set : Fn :=
  ⟨(some n!"BasicCache"), n!"reinitialize_eval_set", .refMut, [n!"rule", n!"start_position"], some (.block (.letS (.var n!"head") false
      (.meth (.meth (.field (.path [n!"self"]) n!"heads") n!"get_mut" (.cons (.ref (.tuple (.cons (.path [n!"rule"]) (.cons (.path
      [n!"start_position"]) .nil)))) .nil)) n!"expect" (.cons (.str n!"Should exist by now") .nil))
    (.exprS (.assign (.field (.path [n!"head"]) n!"eval_set") (.meth (.field (.path [n!"head"]) n!"involved_set") n!"clone" .nil))
    .nil)))⟩

/-- parser/src/cache.rs:90 -/
def BasicCache.rule_in_involved_set : Fn :=
  ⟨(some n!"BasicCache"), n!"rule_in_involved_set", .ref, [n!"head_index", n!"rule"], some (.block (.letS (.var n!"head") false (.meth
      (.meth (.field (.path [n!"self"]) n!"heads") n!"get" (.cons (.ref (.path [n!"head_index"])) .nil)) n!"expect" (.cons (.str
      n!"Should always exist when calling rule_in_involved_set") .nil))
    (.tail (.meth (.field (.path [n!"head"]) n!"involved_set") n!"contains" (.cons (.ref (.path [n!"rule"])) .nil)))))⟩

/-- parser/src/cache.rs:101 -/
def BasicCache.rule_in_eval_set : Fn :=
  ⟨(some n!"BasicCache"), n!"rule_in_eval_set", .ref, [n!"head_index", n!"rule"], some (.block (.letS (.var n!"head") false (.meth (.meth
      (.field (.path [n!"self"]) n!"heads") n!"get" (.cons (.ref (.path [n!"head_index"])) .nil)) n!"expect" (.cons (.str
      n!"Should always exist when calling rule_in_eval_set") .nil))
    (.tail (.meth (.field (.path [n!"head"]) n!"eval_set") n!"contains" (.cons (.ref (.path [n!"rule"])) .nil)))))⟩

/-- parser/src/cache.rs:109 -/
def BasicCache.remove_from_eval_set : Fn :=
  ⟨(some n!"BasicCache"), n!"remove_from_eval_set", .refMut, [n!"head_index", n!"rule"], some (.block (.exprS (.meth (.field (.meth (.meth
      (.field (.path [n!"self"]) n!"heads") n!"get_mut" (.cons (.ref (.path [n!"head_index"])) .nil)) n!"expect" (.cons (.str
      n!"Should exist by now") .nil)) n!"eval_set") n!"remove" (.cons (.ref (.path [n!"rule"])) .nil))
    .nil))⟩

/-- The items of parser/src/cache.rs. -/
def cacheItems : List Item :=
  [.fn BasicCache.default, .fn BasicCache.new, .fn BasicCache.get_current_active_lr_position, .fn BasicCache.set_current_active_lr_position,
   .fn BasicCache.insert, .fn BasicCache.check, .fn BasicCache.check_head, .fn BasicCache.set_head, .fn BasicCache.reinitialize_eval_set,
   .fn BasicCache.rule_in_involved_set, .fn BasicCache.rule_in_eval_set, .fn BasicCache.remove_from_eval_set, .unitStruct
   n!"DirectLeftRecursionCache", .unitStruct n!"IndirectLeftRecursionCache"]

/-- parser/src/publisher.rs:17 -/
def BasicPublisher.eq : Fn :=
  ⟨(some n!"BasicPublisher"), n!"eq", .ref, [n!"other"], some (.block (.tail (.meth (.path [n!"self"]) n!"partial_eq_kernel" (.cons (.path
      [n!"other"]) (.cons (.call (.path [n!"Key"]) (.cons (.int 0) .nil)) (.cons (.call (.path [n!"Key"]) (.cons (.int 0) .nil)) .nil))))))⟩

/-- parser/src/publisher.rs:23 -/
def BasicPublisher.partial_eq_kernel : Fn :=
  ⟨(some n!"BasicPublisher"), n!"partial_eq_kernel", .ref, [n!"other", n!"self_index", n!"other_index"], some (.block (.letS (.var
      n!"self_node") false (.meth (.path [n!"self"]) n!"get_node" (.cons (.path [n!"self_index"]) .nil))
    (.letS (.var n!"other_node") false (.meth (.path [n!"other"]) n!"get_node" (.cons (.path [n!"other_index"]) .nil))
    (.tail (.ite (.bin .eq (.path [n!"self_node"]) (.path [n!"other_node"])) (.block (.exprS (.forIn (.var n!"index") (.call (.path
      [n!"range"]) (.cons (.int 0) (.cons (.meth (.field (.path [n!"self_node"]) n!"children") n!"len" .nil) .nil))) (.block (.exprS (.ite
      (.bin .ne (.meth (.meth (.path [n!"self_node"]) n!"get_children" .nil) n!"len" .nil) (.meth (.meth (.path [n!"other_node"])
      n!"get_children" .nil) n!"len" .nil)) (.block (.exprS (.ret (.bool false))
    .nil)) (.tuple .nil))
    (.letS (.var n!"self_child_key") false (.index (.meth (.path [n!"self_node"]) n!"get_children" .nil) (.path [n!"index"]))
    (.letS (.var n!"other_child_key") false (.index (.meth (.path [n!"other_node"]) n!"get_children" .nil) (.path [n!"index"]))
    (.tail (.ite (.not (.meth (.path [n!"self"]) n!"partial_eq_kernel" (.cons (.path [n!"other"]) (.cons (.path [n!"self_child_key"]) (.cons
      (.path [n!"other_child_key"]) .nil))))) (.block (.exprS (.ret (.bool false))
    .nil)) (.tuple .nil))))))))
    (.tail (.bool true)))) (.block (.tail (.bool false))))))))⟩

/-- parser/src/publisher.rs:42 -/
def BasicPublisher.clear_node_of_children : Fn :=
  ⟨(some n!"BasicPublisher"), n!"clear_node_of_children", .refMut, [n!"node"], some (.block (.exprS (.meth (.meth (.path [n!"self"])
      n!"get_mut_node" (.cons (.path [n!"node"]) .nil)) n!"set_children" (.cons (.array .nil) .nil))
    .nil))⟩

/-- parser/src/publisher.rs:46 -/
def BasicPublisher.new : Fn :=
  ⟨(some n!"BasicPublisher"), n!"new", .none, [n!"size_of_source", n!"number_of_rules"], some (.block (.letS (.var n!"p") true (.struct
      n!"BasicPublisher" (.cons n!"nodes" (.call (.path [n!"Vec", n!"with_capacity"]) (.cons (.bin .div (.bin .mul (.path
      [n!"size_of_source"]) (.path [n!"number_of_rules"])) (.int 64)) .nil)) .nil))
    (.exprS (.meth (.path [n!"p"]) n!"add_node" (.cons (.path [n!"Rules", n!"Grammar"]) (.cons (.int 0) (.cons (.int 0) (.cons (.bool true)
      .nil)))))
    (.tail (.path [n!"p"])))))⟩

/-- parser/src/publisher.rs:58 -/
def BasicPublisher.clear_tree : Fn :=
  ⟨(some n!"BasicPublisher"), n!"clear_tree", .refMut, [], some (.block (.exprS (.meth (.field (.path [n!"self"]) n!"nodes") n!"clear" .nil)
    .nil))⟩

/-- parser/src/publisher.rs:62 -/
def BasicPublisher.add_node : Fn :=
  ⟨(some n!"BasicPublisher"), n!"add_node", .refMut, [n!"rule", n!"start_position", n!"end_position", n!"result"], some (.block (.letS (.var
      n!"len") false (.meth (.field (.path [n!"self"]) n!"nodes") n!"len" .nil)
    (.letS (.var n!"key") false (.call (.path [n!"Key"]) (.cons (.meth (.meth (.path [n!"len"]) n!"try_into" .nil) n!"unwrap" .nil) .nil))
    (.letS (.var n!"node") false (.struct n!"Node" (.cons n!"index" (.path [n!"key"]) (.cons n!"rule" (.path [n!"rule"]) (.cons
      n!"start_position" (.path [n!"start_position"]) (.cons n!"end_position" (.path [n!"end_position"]) (.cons n!"result" (.path
      [n!"result"]) (.cons n!"children" (.call (.path [n!"Vec", n!"new"]) .nil) .nil)))))))
    (.exprS (.meth (.field (.path [n!"self"]) n!"nodes") n!"push" (.cons (.path [n!"node"]) .nil))
    (.tail (.path [n!"key"])))))))⟩

/-- parser/src/publisher.rs:83 -/
def BasicPublisher.connect : Fn :=
  ⟨(some n!"BasicPublisher"), n!"connect", .refMut, [n!"parent_index", n!"child_index"], some (.block (.exprS (.mac n!"debug_assert" (.cons
      (.bin .ne (.path [n!"parent_index"]) (.path [n!"child_index"])) (.cons (.str
      n!"Debug: Cannot connect a Node to itself! -> In BasicPublisher.connect, Parent: {parent_index:?}, Child: {child_index:?}") .nil)))
    (.letS (.var n!"parent_node") false (.meth (.path [n!"self"]) n!"get_mut_node" (.cons (.path [n!"parent_index"]) .nil))
    (.exprS (.meth (.field (.path [n!"parent_node"]) n!"children") n!"push" (.cons (.path [n!"child_index"]) .nil))
    .nil))))⟩

/-- parser/src/publisher.rs:92 -/
def BasicPublisher.connect_front : Fn :=
  ⟨(some n!"BasicPublisher"), n!"connect_front", .refMut, [n!"parent_index", n!"child_index"], some (.block (.exprS (.mac n!"debug_assert"
      (.cons (.bin .ne (.path [n!"parent_index"]) (.path [n!"child_index"])) (.cons (.str
      n!"Debug: Cannot connect a Node to itself! -> In BasicPublisher.connect_front") .nil)))
    (.letS (.var n!"parent_node") false (.meth (.path [n!"self"]) n!"get_mut_node" (.cons (.path [n!"parent_index"]) .nil))
    (.letS (.var n!"copy_of_children") true (.meth (.field (.path [n!"parent_node"]) n!"children") n!"clone" .nil)
    (.exprS (.meth (.field (.path [n!"parent_node"]) n!"children") n!"clear" .nil)
    (.exprS (.meth (.field (.path [n!"parent_node"]) n!"children") n!"push" (.cons (.path [n!"child_index"]) .nil))
    (.exprS (.meth (.field (.path [n!"parent_node"]) n!"children") n!"append" (.cons (.refMut (.path [n!"copy_of_children"])) .nil))
    .nil)))))))⟩

/-- parser/src/publisher.rs:107 -/
def BasicPublisher.connect_if_not_connected : Fn :=
  ⟨(some n!"BasicPublisher"), n!"connect_if_not_connected", .refMut, [n!"parent_index", n!"child_index"], some (.block (.letS (.var
      n!"parent_node") false (.meth (.path [n!"self"]) n!"get_mut_node" (.cons (.path [n!"parent_index"]) .nil))
    (.exprS (.forIn (.var n!"child") (.ref (.field (.path [n!"parent_node"]) n!"children")) (.block (.tail (.ite (.bin .eq (.deref (.path
      [n!"child"])) (.path [n!"child_index"])) (.block (.exprS (.ret (.tuple .nil))
    .nil)) (.tuple .nil)))))
    (.exprS (.meth (.field (.path [n!"parent_node"]) n!"children") n!"push" (.cons (.path [n!"child_index"]) .nil))
    .nil))))⟩

/-- parser/src/publisher.rs:116 -/
def BasicPublisher.disconnect : Fn :=
  ⟨(some n!"BasicPublisher"), n!"disconnect", .refMut, [n!"parent_index", n!"child_index"], some (.block (.letS (.var n!"parent_node") false
      (.meth (.path [n!"self"]) n!"get_mut_node" (.cons (.path [n!"parent_index"]) .nil))
    (.letS (.var n!"remove_pos") true (.path [n!"None"])
    (.exprS (.forIn (.tuple [n!"position", n!"child"]) (.meth (.meth (.field (.path [n!"parent_node"]) n!"children") n!"iter" .nil)
      n!"enumerate" .nil) (.block (.tail (.ite (.bin .eq (.deref (.path [n!"child"])) (.path [n!"child_index"])) (.block (.exprS (.assign
      (.path [n!"remove_pos"]) (.call (.path [n!"Some"]) (.cons (.path [n!"position"]) .nil)))
    .nil)) (.tuple .nil)))))
    (.tail (.mtch (.path [n!"remove_pos"]) (.cons .none (.block .nil) (.cons (.some n!"remove_pos") (.block (.exprS (.meth (.field (.path
      [n!"parent_node"]) n!"children") n!"remove" (.cons (.path [n!"remove_pos"]) .nil))
    .nil)) .nil))))))))⟩

/-- parser/src/publisher.rs:132 -/
def BasicPublisher.set_node_start_position : Fn :=
  ⟨(some n!"BasicPublisher"), n!"set_node_start_position", .refMut, [n!"index", n!"start_position"], some (.block (.tail (.assign (.field
      (.index (.field (.path [n!"self"]) n!"nodes") (.call (.path [n!"usize", n!"from"]) (.cons (.path [n!"index"]) .nil)))
      n!"start_position") (.path [n!"start_position"]))))⟩

/-- parser/src/publisher.rs:135 -/
def BasicPublisher.set_node_end_position : Fn :=
  ⟨(some n!"BasicPublisher"), n!"set_node_end_position", .refMut, [n!"index", n!"end_position"], some (.block (.tail (.assign (.field
      (.index (.field (.path [n!"self"]) n!"nodes") (.call (.path [n!"usize", n!"from"]) (.cons (.path [n!"index"]) .nil)))
      n!"end_position") (.path [n!"end_position"]))))⟩

/-- parser/src/publisher.rs:138 -/
def BasicPublisher.set_node_result : Fn :=
  ⟨(some n!"BasicPublisher"), n!"set_node_result", .refMut, [n!"index", n!"result"], some (.block (.tail (.assign (.field (.index (.field
      (.path [n!"self"]) n!"nodes") (.call (.path [n!"usize", n!"from"]) (.cons (.path [n!"index"]) .nil))) n!"result") (.path
      [n!"result"]))))⟩

/-- parser/src/publisher.rs:142 -/
def BasicPublisher.print : Fn :=
  ⟨(some n!"BasicPublisher"), n!"print", .ref, [n!"index", n!"boolean"], some (.block (.letS (.var n!"indent") false (.int 0)
    (.tail (.ite (.bin .and (.meth (.path [n!"boolean"]) n!"is_some" .nil) (.meth (.path [n!"boolean"]) n!"unwrap" .nil)) (.block (.exprS
      (.meth (.path [n!"self"]) n!"print_kernel_true" (.cons (.path [n!"index"]) (.cons (.path [n!"indent"]) .nil)))
    .nil)) (.ite (.bin .and (.meth (.path [n!"boolean"]) n!"is_some" .nil) (.not (.meth (.path [n!"boolean"]) n!"unwrap" .nil))) (.block
      (.exprS (.meth (.path [n!"self"]) n!"print_kernel_false" (.cons (.path [n!"index"]) (.cons (.path [n!"indent"]) .nil)))
    .nil)) (.block (.exprS (.meth (.path [n!"self"]) n!"print_kernel_all" (.cons (.path [n!"index"]) (.cons (.path [n!"indent"]) .nil)))
    .nil)))))))⟩

/-- parser/src/publisher.rs:153 -/
def BasicPublisher.clear_false : Fn :=
  ⟨(some n!"BasicPublisher"), n!"clear_false", .val, [], some (.block (.letS (.var n!"capacity") false (.bin .div (.meth (.path [n!"self"])
      n!"len" .nil) (.int 4))
    (.letS (.var n!"new_tree") true (.call (.path [n!"BasicPublisher", n!"new"]) (.cons (.path [n!"capacity"]) (.cons (.int 1) .nil)))
    (.letS (.var n!"index") false (.int 0)
    (.letS (.var n!"node") false (.meth (.path [n!"self"]) n!"get_node" (.cons (.call (.path [n!"Key"]) (.cons (.path [n!"index"]) .nil))
      .nil))
    (.exprS (.ite (.field (.path [n!"node"]) n!"result") (.block (.exprS (.meth (.path [n!"new_tree"]) n!"add_node" (.cons (.field (.path
      [n!"node"]) n!"rule") (.cons (.field (.path [n!"node"]) n!"start_position") (.cons (.field (.path [n!"node"]) n!"end_position") (.cons
      (.field (.path [n!"node"]) n!"result") .nil)))))
    (.tail (.forIn (.var n!"i") (.ref (.field (.path [n!"node"]) n!"children")) (.block (.exprS (.meth (.path [n!"self"])
      n!"clear_false_kernel" (.cons (.refMut (.path [n!"new_tree"])) (.cons (.call (.path [n!"Key"]) (.cons (.path [n!"index"]) .nil))
      (.cons (.deref (.path [n!"i"])) .nil))))
    .nil)))))) (.tuple .nil))
    (.tail (.path [n!"new_tree"]))))))))⟩

/-- parser/src/publisher.rs:178 -/
def BasicPublisher.get_node : Fn :=
  ⟨(some n!"BasicPublisher"), n!"get_node", .ref, [n!"index"], some (.block (.tail (.ref (.index (.field (.path [n!"self"]) n!"nodes")
      (.call (.path [n!"usize", n!"from"]) (.cons (.path [n!"index"]) .nil))))))⟩

/-- parser/src/publisher.rs:182 -/
def BasicPublisher.get_mut_node : Fn :=
  ⟨(some n!"BasicPublisher"), n!"get_mut_node", .refMut, [n!"index"], some (.block (.tail (.refMut (.index (.field (.path [n!"self"])
      n!"nodes") (.call (.path [n!"usize", n!"from"]) (.cons (.path [n!"index"]) .nil))))))⟩

/-- parser/src/publisher.rs:186 -/
def BasicPublisher.clear_false_kernel : Fn :=
  ⟨(some n!"BasicPublisher"), n!"clear_false_kernel", .ref, [n!"new_tree", n!"parent_index", n!"index"], some (.block (.letS (.var n!"node")
      false (.meth (.path [n!"self"]) n!"get_node" (.cons (.path [n!"index"]) .nil))
    (.tail (.ite (.bin .and (.field (.path [n!"node"]) n!"result") (.bin .ne (.field (.path [n!"node"]) n!"start_position") (.field (.path
      [n!"node"]) n!"end_position"))) (.block (.letS (.var n!"child_index") false (.meth (.path [n!"new_tree"]) n!"add_node" (.cons (.field
      (.path [n!"node"]) n!"rule") (.cons (.field (.path [n!"node"]) n!"start_position") (.cons (.field (.path [n!"node"]) n!"end_position")
      (.cons (.field (.path [n!"node"]) n!"result") .nil)))))
    (.exprS (.meth (.path [n!"new_tree"]) n!"connect" (.cons (.path [n!"parent_index"]) (.cons (.path [n!"child_index"]) .nil)))
    (.tail (.forIn (.var n!"i") (.ref (.field (.path [n!"node"]) n!"children")) (.block (.exprS (.meth (.path [n!"self"])
      n!"clear_false_kernel" (.cons (.path [n!"new_tree"]) (.cons (.path [n!"child_index"]) (.cons (.deref (.path [n!"i"])) .nil))))
    .nil))))))) (.tuple .nil)))))⟩

/-- parser/src/publisher.rs:202 -/
def BasicPublisher.capacity : Fn :=
  ⟨(some n!"BasicPublisher"), n!"capacity", .ref, [], some (.block (.tail (.meth (.field (.path [n!"self"]) n!"nodes") n!"capacity" .nil)))⟩

/-- parser/src/publisher.rs:207 -/
def BasicPublisher.len : Fn :=
  ⟨(some n!"BasicPublisher"), n!"len", .ref, [], some (.block (.tail (.meth (.field (.path [n!"self"]) n!"nodes") n!"len" .nil)))⟩

/-- parser/src/publisher.rs:211 -/
def BasicPublisher.print_kernel_true : Fn :=
  ⟨(some n!"BasicPublisher"), n!"print_kernel_true", .ref, [n!"index", n!"indent"], some (.block (.letS (.var n!"node") false (.ref (.index
      (.field (.path [n!"self"]) n!"nodes") (.call (.path [n!"usize", n!"from"]) (.cons (.path [n!"index"]) .nil))))
    (.exprS (.ite (.not (.field (.path [n!"node"]) n!"result")) (.block (.exprS (.ret (.tuple .nil))
    .nil)) (.tuple .nil))
    (.exprS (.meth (.path [n!"node"]) n!"print" (.cons (.path [n!"indent"]) .nil))
    (.letS (.var n!"counter") true (.int 0)
    (.tail (.loop (.block (.exprS (.ite (.bin .ge (.path [n!"counter"]) (.meth (.field (.path [n!"node"]) n!"children") n!"len" .nil))
      (.block (.exprS .brk
    .nil)) (.tuple .nil))
    (.letS (.var n!"child_index") false (.index (.field (.path [n!"node"]) n!"children") (.path [n!"counter"]))
    (.exprS (.ite (.bin .eq (.path [n!"child_index"]) (.call (.path [n!"Key"]) (.cons (.int 0) .nil))) (.block (.exprS (.mac n!"println"
      (.cons (.str n!"Error found Key(0) should not happen!") .nil))
    (.exprS .brk
    .nil))) (.tuple .nil))
    (.exprS (.meth (.path [n!"self"]) n!"print_kernel_true" (.cons (.path [n!"child_index"]) (.cons (.bin .add (.path [n!"indent"]) (.int
      1)) .nil)))
    (.exprS (.addAssign (.path [n!"counter"]) (.int 1))
    .nil)))))))))))))⟩

/-- parser/src/publisher.rs:231 -/
def BasicPublisher.print_kernel_false : Fn :=
  ⟨(some n!"BasicPublisher"), n!"print_kernel_false", .ref, [n!"index", n!"indent"], some (.block (.letS (.var n!"node") false (.ref (.index
      (.field (.path [n!"self"]) n!"nodes") (.call (.path [n!"usize", n!"from"]) (.cons (.path [n!"index"]) .nil))))
    (.exprS (.ite (.field (.path [n!"node"]) n!"result") (.block (.exprS (.ret (.tuple .nil))
    .nil)) (.tuple .nil))
    (.exprS (.mac n!"print" (.cons .msg .nil))
    (.exprS (.meth (.path [n!"node"]) n!"print" (.cons (.path [n!"indent"]) .nil))
    (.exprS (.mac n!"print" (.cons .msg .nil))
    (.letS (.var n!"counter") true (.int 0)
    (.tail (.loop (.block (.exprS (.ite (.bin .ge (.path [n!"counter"]) (.meth (.field (.path [n!"node"]) n!"children") n!"len" .nil))
      (.block (.exprS .brk
    .nil)) (.tuple .nil))
    (.letS (.var n!"child_index") false (.index (.field (.path [n!"node"]) n!"children") (.path [n!"counter"]))
    (.exprS (.ite (.bin .eq (.path [n!"child_index"]) (.call (.path [n!"Key"]) (.cons (.int 0) .nil))) (.block (.exprS (.mac n!"println"
      (.cons (.str n!"Error found Key(0) should not happen!") .nil))
    (.exprS .brk
    .nil))) (.tuple .nil))
    (.exprS (.meth (.path [n!"self"]) n!"print_kernel_false" (.cons (.path [n!"child_index"]) (.cons (.bin .add (.path [n!"indent"]) (.int
      1)) .nil)))
    (.exprS (.addAssign (.path [n!"counter"]) (.int 1))
    .nil)))))))))))))))⟩

/-- parser/src/publisher.rs:255 -/
def BasicPublisher.print_kernel_all : Fn :=
  ⟨(some n!"BasicPublisher"), n!"print_kernel_all", .ref, [n!"index", n!"indent"], some (.block (.letS (.var n!"node") false (.ref (.index
      (.field (.path [n!"self"]) n!"nodes") (.call (.path [n!"usize", n!"from"]) (.cons (.path [n!"index"]) .nil))))
    (.exprS (.ite (.not (.field (.path [n!"node"]) n!"result")) (.block (.exprS (.mac n!"print" (.cons .msg .nil))
    .nil)) (.tuple .nil))
    (.exprS (.meth (.path [n!"node"]) n!"print" (.cons (.path [n!"indent"]) .nil))
    (.exprS (.ite (.not (.field (.path [n!"node"]) n!"result")) (.block (.tail (.mac n!"print" (.cons .msg .nil)))) (.tuple .nil))
    (.letS (.var n!"counter") true (.int 0)
    (.tail (.loop (.block (.exprS (.ite (.bin .ge (.path [n!"counter"]) (.meth (.field (.path [n!"node"]) n!"children") n!"len" .nil))
      (.block (.exprS .brk
    .nil)) (.tuple .nil))
    (.letS (.var n!"child_index") false (.index (.field (.path [n!"node"]) n!"children") (.path [n!"counter"]))
    (.exprS (.ite (.bin .eq (.path [n!"child_index"]) (.call (.path [n!"Key"]) (.cons (.int 0) .nil))) (.block (.exprS (.mac n!"println"
      (.cons (.str n!"Error found Key(0) should not happen!") .nil))
    (.exprS .brk
    .nil))) (.tuple .nil))
    (.exprS (.meth (.path [n!"self"]) n!"print_kernel_all" (.cons (.path [n!"child_index"]) (.cons (.bin .add (.path [n!"indent"]) (.int 1))
      .nil)))
    (.exprS (.addAssign (.path [n!"counter"]) (.int 1))
    .nil))))))))))))))⟩

/-- parser/src/publisher.rs:295 -/
def Node.eq : Fn :=
  ⟨(some n!"Node"), n!"eq", .ref, [n!"other"], some (.block (.tail (.ite (.bin .ne (.field (.path [n!"self"]) n!"rule") (.field (.path
      [n!"other"]) n!"rule")) (.block (.exprS (.mac n!"println" (.cons (.str n!"Rule must match!") .nil))
    (.exprS (.meth (.path [n!"self"]) n!"print" (.cons (.int 0) .nil))
    (.exprS (.meth (.path [n!"other"]) n!"print" (.cons (.int 0) .nil))
    (.tail (.bool false)))))) (.ite (.bin .ne (.field (.path [n!"self"]) n!"start_position") (.field (.path [n!"other"])
      n!"start_position")) (.block (.exprS (.mac n!"println" (.cons (.str n!"Start Position must match!") .nil))
    (.exprS (.meth (.path [n!"self"]) n!"print" (.cons (.int 0) .nil))
    (.exprS (.meth (.path [n!"other"]) n!"print" (.cons (.int 0) .nil))
    (.tail (.bool false)))))) (.ite (.bin .ne (.field (.path [n!"self"]) n!"end_position") (.field (.path [n!"other"]) n!"end_position"))
      (.block (.exprS (.mac n!"println" (.cons (.str n!"End Position must match!") .nil))
    (.exprS (.meth (.path [n!"self"]) n!"print" (.cons (.int 0) .nil))
    (.exprS (.meth (.path [n!"other"]) n!"print" (.cons (.int 0) .nil))
    (.tail (.bool false)))))) (.ite (.bin .ne (.field (.path [n!"self"]) n!"result") (.field (.path [n!"other"]) n!"result")) (.block
      (.exprS (.mac n!"println" (.cons (.str n!"Result(boolean) must be identical!") .nil))
    (.exprS (.meth (.path [n!"self"]) n!"print" (.cons (.int 0) .nil))
    (.exprS (.meth (.path [n!"other"]) n!"print" (.cons (.int 0) .nil))
    (.tail (.bool false)))))) (.ite (.bin .ne (.meth (.field (.path [n!"self"]) n!"children") n!"len" .nil) (.meth (.field (.path
      [n!"other"]) n!"children") n!"len" .nil)) (.block (.exprS (.mac n!"println" (.cons (.str n!"Number of children must be identical!.")
      .nil))
    (.exprS (.meth (.path [n!"self"]) n!"print" (.cons (.int 0) .nil))
    (.exprS (.meth (.path [n!"other"]) n!"print" (.cons (.int 0) .nil))
    (.tail (.bool false)))))) (.block (.tail (.bool true))))))))))⟩

/-- parser/src/publisher.rs:331 -/
def Node.new : Fn :=
  ⟨(some n!"Node"), n!"new", .none, [n!"rule", n!"start_position", n!"end_position", n!"result"], some (.block (.tail (.struct n!"Node"
      (.cons n!"index" (.call (.path [n!"Key"]) (.cons (.int 0) .nil)) (.cons n!"rule" (.path [n!"rule"]) (.cons n!"start_position" (.path
      [n!"start_position"]) (.cons n!"end_position" (.path [n!"end_position"]) (.cons n!"result" (.path [n!"result"]) (.cons n!"children"
      (.call (.path [n!"Vec", n!"new"]) .nil) .nil)))))))))⟩

/-- parser/src/publisher.rs:342 -/
def Node.get_string : Fn :=
  ⟨(some n!"Node"), n!"get_string", .ref, [n!"source"], some (.block (.tail (.meth (.slice (.path [n!"source"]) (.cast (.field (.path
      [n!"self"]) n!"start_position") n!"usize") (.cast (.field (.path [n!"self"]) n!"end_position") n!"usize")) n!"to_string" .nil)))⟩

/-- parser/src/publisher.rs:346 -/
def Node.get_children : Fn :=
  ⟨(some n!"Node"), n!"get_children", .ref, [], some (.block (.tail (.ref (.field (.path [n!"self"]) n!"children"))))⟩

/-- parser/src/publisher.rs:349 -/
def Node.set_children : Fn :=
  ⟨(some n!"Node"), n!"set_children", .refMut, [n!"children"], some (.block (.exprS (.assign (.field (.path [n!"self"]) n!"children") (.path
      [n!"children"]))
    .nil))⟩

/-- parser/src/publisher.rs:353 -/
def Node.print : Fn :=
  ⟨(some n!"Node"), n!"print", .ref, [n!"indent"], some (.block (.tail (.mac n!"println" (.cons (.str
      n!"{}{:?}, {:?}, {:?}, {:?}, {:?}, {:?}") (.cons (.meth (.str n!"    ") n!"repeat" (.cons (.path [n!"indent"]) .nil)) (.cons (.field
      (.path [n!"self"]) n!"index") (.cons (.field (.path [n!"self"]) n!"rule") (.cons (.field (.path [n!"self"]) n!"start_position") (.cons
      (.field (.path [n!"self"]) n!"end_position") (.cons (.field (.path [n!"self"]) n!"result") (.cons (.meth (.field (.path [n!"self"])
      n!"children") n!"len" .nil) .nil)))))))))))⟩

/-- The items of parser/src/publisher.rs. -/
def publisherItems : List Item :=
  [.fn BasicPublisher.eq, .fn BasicPublisher.partial_eq_kernel, .fn BasicPublisher.clear_node_of_children, .fn BasicPublisher.new, .fn
   BasicPublisher.clear_tree, .fn BasicPublisher.add_node, .fn BasicPublisher.connect, .fn BasicPublisher.connect_front, .fn
   BasicPublisher.connect_if_not_connected, .fn BasicPublisher.disconnect, .fn BasicPublisher.set_node_start_position, .fn
   BasicPublisher.set_node_end_position, .fn BasicPublisher.set_node_result, .fn BasicPublisher.print, .fn BasicPublisher.clear_false, .fn
   BasicPublisher.get_node, .fn BasicPublisher.get_mut_node, .fn BasicPublisher.clear_false_kernel, .fn BasicPublisher.capacity, .fn
   BasicPublisher.len, .fn BasicPublisher.print_kernel_true, .fn BasicPublisher.print_kernel_false, .fn BasicPublisher.print_kernel_all, .fn
   Node.eq, .fn Node.new, .fn Node.get_string, .fn Node.get_children, .fn Node.set_children, .fn Node.print, .unitStruct
   n!"DirectLeftRecursionPublisher", .unitStruct n!"IndirectLeftRecursionPublisher"]

/-- parser/src/context.rs:79 -/
def BasicContext.new : Fn :=
  ⟨(some n!"BasicContext"), n!"new", .none, [n!"size_of_source", n!"number_of_rules"], some (.block (.tail (.struct n!"BasicContext" (.cons
      n!"cache" (.call (.path [n!"BasicCache", n!"new"]) .nil) (.cons n!"publisher" (.call (.path [n!"BasicPublisher", n!"new"]) (.cons
      (.path [n!"size_of_source"]) (.cons (.path [n!"number_of_rules"]) .nil))) .nil)))))⟩

/-- parser/src/context.rs:86 -/
def BasicContext.get_current_active_lr_position : Fn :=
  ⟨(some n!"BasicContext"), n!"get_current_active_lr_position", .ref, [], some (.block (.tail (.meth (.field (.path [n!"self"]) n!"cache")
      n!"get_current_active_lr_position" .nil)))⟩

/-- parser/src/context.rs:89 -/
def BasicContext.set_current_active_lr_position : Fn :=
  ⟨(some n!"BasicContext"), n!"set_current_active_lr_position", .refMut, [n!"position"], some (.block (.exprS (.meth (.field (.path
      [n!"self"]) n!"cache") n!"set_current_active_lr_position" (.cons (.path [n!"position"]) .nil))
    .nil))⟩

/-- parser/src/context.rs:93 -/
def BasicContext.reinitialize_eval_set : Fn :=
  ⟨(some n!"BasicContext"), n!"reinitialize_eval_set", .refMut, [n!"rule", n!"start_position"], some (.block (.exprS (.meth (.field (.path
      [n!"self"]) n!"cache") n!"reinitialize_eval_set" (.cons (.path [n!"rule"]) (.cons (.path [n!"start_position"]) .nil)))
    .nil))⟩

/-- parser/src/context.rs:97 -/
def BasicContext.print_cache : Fn :=
  ⟨(some n!"BasicContext"), n!"print_cache", .ref, [], some (.block (.tail (.mac n!"println" (.cons (.str n!"{:?}") (.cons (.ref (.field
      (.path [n!"self"]) n!"cache")) .nil)))))⟩

/-- parser/src/context.rs:100 -/
def BasicContext.print_publisher : Fn :=
  ⟨(some n!"BasicContext"), n!"print_publisher", .ref, [], some (.block (.tail (.mac n!"println" (.cons .msg (.cons (.ref (.field (.path
      [n!"self"]) n!"publisher")) .nil)))))⟩

/-- parser/src/context.rs:103 -/
def BasicContext.print_node : Fn :=
  ⟨(some n!"BasicContext"), n!"print_node", .ref, [n!"node"], some (.block (.exprS (.meth (.field (.path [n!"self"]) n!"publisher")
      n!"print" (.cons (.path [n!"node"]) (.cons (.path [n!"None"]) .nil)))
    .nil))⟩

/-- parser/src/context.rs:107 -/
def BasicContext.reserve_publisher_entry : Fn :=
  ⟨(some n!"BasicContext"), n!"reserve_publisher_entry", .refMut, [n!"rule"], some (.block (.tail (.meth (.field (.path [n!"self"])
      n!"publisher") n!"add_node" (.cons (.path [n!"rule"]) (.cons (.int 0) (.cons (.int 0) (.cons (.bool false) .nil)))))))⟩

/-- parser/src/context.rs:110 -/
def BasicContext.connect : Fn :=
  ⟨(some n!"BasicContext"), n!"connect", .refMut, [n!"parent_key", n!"child_key"], some (.block (.exprS (.meth (.field (.path [n!"self"])
      n!"publisher") n!"connect" (.cons (.path [n!"parent_key"]) (.cons (.path [n!"child_key"]) .nil)))
    .nil))⟩

/-- parser/src/context.rs:113 -/
def BasicContext.create_cache_entry : Fn :=
  ⟨(some n!"BasicContext"), n!"create_cache_entry", .refMut, [n!"rule", n!"is_true", n!"start_position", n!"end_position", n!"key"], some
      (.block (.exprS (.meth (.field (.path [n!"self"]) n!"cache") n!"insert" (.cons (.path [n!"rule"]) (.cons (.path [n!"is_true"]) (.cons
      (.path [n!"start_position"]) (.cons (.path [n!"end_position"]) (.cons (.path [n!"key"]) .nil))))))
    .nil))⟩

/-- parser/src/context.rs:125 -/
def BasicContext.update_publisher_entry : Fn :=
  ⟨(some n!"BasicContext"), n!"update_publisher_entry", .refMut, [n!"key", n!"is_true", n!"start_position", n!"end_position"], some (.block
      (.exprS (.meth (.field (.path [n!"self"]) n!"publisher") n!"set_node_result" (.cons (.path [n!"key"]) (.cons (.path [n!"is_true"])
      .nil)))
    (.exprS (.meth (.field (.path [n!"self"]) n!"publisher") n!"set_node_start_position" (.cons (.path [n!"key"]) (.cons (.path
      [n!"start_position"]) .nil)))
    (.exprS (.meth (.field (.path [n!"self"]) n!"publisher") n!"set_node_end_position" (.cons (.path [n!"key"]) (.cons (.path
      [n!"end_position"]) .nil)))
    .nil))))⟩

/-- parser/src/context.rs:136 -/
def BasicContext.check : Fn :=
  ⟨(some n!"BasicContext"), n!"check", .ref, [n!"rule", n!"start_position"], some (.block (.tail (.meth (.field (.path [n!"self"])
      n!"cache") n!"check" (.cons (.path [n!"rule"]) (.cons (.path [n!"start_position"]) .nil)))))⟩

/-- parser/src/context.rs:139 -/
def BasicContext.check_head : Fn :=
  ⟨(some n!"BasicContext"), n!"check_head", .ref, [n!"rule", n!"start_position"], some (.block (.tail (.meth (.field (.path [n!"self"])
      n!"cache") n!"check_head" (.cons (.path [n!"rule"]) (.cons (.path [n!"start_position"]) .nil)))))⟩

/-- parser/src/context.rs:143 -/
def BasicContext.rule_in_involved_set : Fn :=
  ⟨(some n!"BasicContext"), n!"rule_in_involved_set", .ref, [n!"head", n!"rule"], some (.block (.tail (.meth (.field (.path [n!"self"])
      n!"cache") n!"rule_in_involved_set" (.cons (.path [n!"head"]) (.cons (.path [n!"rule"]) .nil)))))⟩

/-- parser/src/context.rs:146 -/
def BasicContext.connect_if_not_connected : Fn :=
  ⟨(some n!"BasicContext"), n!"connect_if_not_connected", .refMut, [n!"parent_index", n!"child_index"], some (.block (.exprS (.meth (.field
      (.path [n!"self"]) n!"publisher") n!"connect_if_not_connected" (.cons (.path [n!"parent_index"]) (.cons (.path [n!"child_index"])
      .nil)))
    .nil))⟩

/-- parser/src/context.rs:150 -/
def BasicContext.set_head : Fn :=
  ⟨(some n!"BasicContext"), n!"set_head", .refMut, [n!"start_position", n!"head_rule", n!"involved_set"], some (.block (.exprS (.meth
      (.field (.path [n!"self"]) n!"cache") n!"set_head" (.cons (.path [n!"start_position"]) (.cons (.path [n!"head_rule"]) (.cons (.path
      [n!"involved_set"]) .nil))))
    .nil))⟩

/-- parser/src/context.rs:153 -/
def BasicContext.rule_in_eval_set : Fn :=
  ⟨(some n!"BasicContext"), n!"rule_in_eval_set", .ref, [n!"head_index", n!"rule"], some (.block (.tail (.meth (.field (.path [n!"self"])
      n!"cache") n!"rule_in_eval_set" (.cons (.path [n!"head_index"]) (.cons (.path [n!"rule"]) .nil)))))⟩

/-- parser/src/context.rs:156 -/
def BasicContext.remove_from_eval_set : Fn :=
  ⟨(some n!"BasicContext"), n!"remove_from_eval_set", .refMut, [n!"head_index", n!"rule"], some (.block (.exprS (.meth (.field (.path
      [n!"self"]) n!"cache") n!"remove_from_eval_set" (.cons (.path [n!"head_index"]) (.cons (.path [n!"rule"]) .nil)))
    .nil))⟩

/-- parser/src/context.rs:160 -/
def BasicContext.get_publisher : Fn :=
  ⟨(some n!"BasicContext"), n!"get_publisher", .val, [], some (.block (.tail (.field (.path [n!"self"]) n!"publisher")))⟩

/-- The items of parser/src/context.rs. -/
def contextItems : List Item :=
  [.fn BasicContext.new, .fn BasicContext.get_current_active_lr_position, .fn BasicContext.set_current_active_lr_position, .fn
   BasicContext.reinitialize_eval_set, .fn BasicContext.print_cache, .fn BasicContext.print_publisher, .fn BasicContext.print_node, .fn
   BasicContext.reserve_publisher_entry, .fn BasicContext.connect, .fn BasicContext.create_cache_entry, .fn
   BasicContext.update_publisher_entry, .fn BasicContext.check, .fn BasicContext.check_head, .fn BasicContext.rule_in_involved_set, .fn
   BasicContext.connect_if_not_connected, .fn BasicContext.set_head, .fn BasicContext.rule_in_eval_set, .fn
   BasicContext.remove_from_eval_set, .fn BasicContext.get_publisher]

/-- parser/src/parser_core.rs:4 -/
def _and_predicate_kernel : Fn :=
  ⟨none, n!"_and_predicate_kernel", .none, [n!"parent", n!"source", n!"position", n!"func"], some (.block (.letS (.var n!"temp_position")
      false (.path [n!"position"])
    (.letS (.tuple [n!"valid", n!"_position"]) false (.call (.path [n!"func"]) (.cons (.path [n!"parent"]) (.cons (.path [n!"source"])
      (.cons (.path [n!"temp_position"]) .nil))))
    (.exprS (.ite (.not (.path [n!"valid"])) (.block (.exprS (.ret (.tuple (.cons (.bool false) (.cons (.path [n!"temp_position"]) .nil))))
    .nil)) (.tuple .nil))
    (.tail (.tuple (.cons (.bool true) (.cons (.path [n!"temp_position"]) .nil))))))))⟩

/-- parser/src/parser_core.rs:18 -/
def _and_predicate : Fn :=
  ⟨none, n!"_and_predicate", .none, [n!"func"], some (.block (.tail (.clo [n!"parent", n!"source", n!"position"] (.block (.tail (.call
      (.path [n!"_and_predicate_kernel"]) (.cons (.path [n!"parent"]) (.cons (.path [n!"source"]) (.cons (.path [n!"position"]) (.cons
      (.path [n!"func"]) .nil))))))))))⟩

/-- parser/src/parser_core.rs:26 -/
def _not_predicate_kernel : Fn :=
  ⟨none, n!"_not_predicate_kernel", .none, [n!"parent", n!"source", n!"position", n!"func"], some (.block (.letS (.var n!"temp_position")
      false (.path [n!"position"])
    (.letS (.tuple [n!"valid", n!"_position"]) false (.call (.path [n!"func"]) (.cons (.path [n!"parent"]) (.cons (.path [n!"source"])
      (.cons (.path [n!"temp_position"]) .nil))))
    (.exprS (.ite (.not (.path [n!"valid"])) (.block (.exprS (.ret (.tuple (.cons (.bool true) (.cons (.path [n!"temp_position"]) .nil))))
    .nil)) (.tuple .nil))
    (.tail (.tuple (.cons (.bool false) (.cons (.path [n!"temp_position"]) .nil))))))))⟩

/-- parser/src/parser_core.rs:40 -/
def _not_predicate : Fn :=
  ⟨none, n!"_not_predicate", .none, [n!"func"], some (.block (.tail (.clo [n!"parent", n!"source", n!"position"] (.block (.tail (.call
      (.path [n!"_not_predicate_kernel"]) (.cons (.path [n!"parent"]) (.cons (.path [n!"source"]) (.cons (.path [n!"position"]) (.cons
      (.path [n!"func"]) .nil))))))))))⟩

/-- parser/src/parser_core.rs:48 -/
def _one_or_more_kernel : Fn :=
  ⟨none, n!"_one_or_more_kernel", .none, [n!"parent", n!"source", n!"position", n!"func"], some (.block (.letS (.var n!"temp_position") true
      (.path [n!"position"])
    (.letS (.tuple [n!"valid", n!"position"]) false (.call (.path [n!"func"]) (.cons (.path [n!"parent"]) (.cons (.path [n!"source"]) (.cons
      (.path [n!"temp_position"]) .nil))))
    (.exprS (.ite (.not (.path [n!"valid"])) (.block (.exprS (.ret (.tuple (.cons (.bool false) (.cons (.path [n!"temp_position"]) .nil))))
    .nil)) (.tuple .nil))
    (.exprS (.assign (.path [n!"temp_position"]) (.path [n!"position"]))
    (.exprS (.loop (.block (.letS (.tuple [n!"valid", n!"position"]) false (.call (.path [n!"func"]) (.cons (.path [n!"parent"]) (.cons
      (.path [n!"source"]) (.cons (.path [n!"temp_position"]) .nil))))
    (.exprS (.ite (.not (.path [n!"valid"])) (.block (.exprS .brk
    .nil)) (.tuple .nil))
    (.exprS (.assign (.path [n!"temp_position"]) (.path [n!"position"]))
    .nil)))))
    (.tail (.tuple (.cons (.bool true) (.cons (.path [n!"temp_position"]) .nil))))))))))⟩

/-- parser/src/parser_core.rs:70 -/
def _one_or_more : Fn :=
  ⟨none, n!"_one_or_more", .none, [n!"func"], some (.block (.tail (.clo [n!"parent", n!"source", n!"position"] (.block (.tail (.call (.path
      [n!"_one_or_more_kernel"]) (.cons (.path [n!"parent"]) (.cons (.path [n!"source"]) (.cons (.path [n!"position"]) (.cons (.path
      [n!"func"]) .nil))))))))))⟩

/-- parser/src/parser_core.rs:78 -/
def _optional_kernel : Fn :=
  ⟨none, n!"_optional_kernel", .none, [n!"parent", n!"source", n!"position", n!"func"], some (.block (.letS (.var n!"temp_position") false
      (.path [n!"position"])
    (.letS (.tuple [n!"valid", n!"position"]) false (.call (.path [n!"func"]) (.cons (.path [n!"parent"]) (.cons (.path [n!"source"]) (.cons
      (.path [n!"temp_position"]) .nil))))
    (.exprS (.ite (.not (.path [n!"valid"])) (.block (.exprS (.ret (.tuple (.cons (.bool true) (.cons (.path [n!"temp_position"]) .nil))))
    .nil)) (.tuple .nil))
    (.tail (.tuple (.cons (.bool true) (.cons (.path [n!"position"]) .nil))))))))⟩

/-- parser/src/parser_core.rs:92 -/
def _optional : Fn :=
  ⟨none, n!"_optional", .none, [n!"func"], some (.block (.tail (.clo [n!"parent", n!"source", n!"position"] (.block (.tail (.call (.path
      [n!"_optional_kernel"]) (.cons (.path [n!"parent"]) (.cons (.path [n!"source"]) (.cons (.path [n!"position"]) (.cons (.path
      [n!"func"]) .nil))))))))))⟩

/-- parser/src/parser_core.rs:100 -/
def _ordered_choice_kernel : Fn :=
  ⟨none, n!"_ordered_choice_kernel", .none, [n!"parent", n!"source", n!"position", n!"func_lhs", n!"func_rhs"], some (.block (.letS (.var
      n!"temp_position") false (.path [n!"position"])
    (.letS (.tuple [n!"valid", n!"position"]) false (.call (.path [n!"func_lhs"]) (.cons (.path [n!"parent"]) (.cons (.path [n!"source"])
      (.cons (.path [n!"position"]) .nil))))
    (.exprS (.ite (.path [n!"valid"]) (.block (.exprS (.ret (.tuple (.cons (.bool true) (.cons (.path [n!"position"]) .nil))))
    .nil)) (.tuple .nil))
    (.letS (.var n!"position") false (.path [n!"temp_position"])
    (.letS (.tuple [n!"valid", n!"position"]) false (.call (.path [n!"func_rhs"]) (.cons (.path [n!"parent"]) (.cons (.path [n!"source"])
      (.cons (.path [n!"position"]) .nil))))
    (.tail (.ite (.path [n!"valid"]) (.block (.tail (.tuple (.cons (.bool true) (.cons (.path [n!"position"]) .nil))))) (.block (.tail
      (.tuple (.cons (.bool false) (.cons (.path [n!"temp_position"]) .nil)))))))))))))⟩

/-- parser/src/parser_core.rs:122 -/
def _ordered_choice : Fn :=
  ⟨none, n!"_ordered_choice", .none, [n!"func_lhs", n!"func_rhs"], some (.block (.tail (.clo [n!"parent", n!"source", n!"position"] (.block
      (.tail (.call (.path [n!"_ordered_choice_kernel"]) (.cons (.path [n!"parent"]) (.cons (.path [n!"source"]) (.cons (.path
      [n!"position"]) (.cons (.path [n!"func_lhs"]) (.cons (.path [n!"func_rhs"]) .nil)))))))))))⟩

/-- parser/src/parser_core.rs:131 -/
def _sequence_kernel : Fn :=
  ⟨none, n!"_sequence_kernel", .none, [n!"parent", n!"source", n!"position", n!"func_lhs", n!"func_rhs"], some (.block (.letS (.var
      n!"temp_position") false (.path [n!"position"])
    (.letS (.tuple [n!"lhs_bool", n!"position"]) false (.call (.path [n!"func_lhs"]) (.cons (.path [n!"parent"]) (.cons (.path [n!"source"])
      (.cons (.path [n!"position"]) .nil))))
    (.exprS (.ite (.path [n!"lhs_bool"]) (.block (.letS (.tuple [n!"rhs_bool", n!"position"]) false (.call (.path [n!"func_rhs"]) (.cons
      (.path [n!"parent"]) (.cons (.path [n!"source"]) (.cons (.path [n!"position"]) .nil))))
    (.tail (.ite (.path [n!"rhs_bool"]) (.block (.exprS (.ret (.tuple (.cons (.bool true) (.cons (.path [n!"position"]) .nil))))
    .nil)) (.tuple .nil))))) (.tuple .nil))
    (.tail (.tuple (.cons (.bool false) (.cons (.path [n!"temp_position"]) .nil))))))))⟩

/-- parser/src/parser_core.rs:151 -/
def _sequence : Fn :=
  ⟨none, n!"_sequence", .none, [n!"func_lhs", n!"func_rhs"], some (.block (.tail (.clo [n!"parent", n!"source", n!"position"] (.block (.tail
      (.call (.path [n!"_sequence_kernel"]) (.cons (.path [n!"parent"]) (.cons (.path [n!"source"]) (.cons (.path [n!"position"]) (.cons
      (.path [n!"func_lhs"]) (.cons (.path [n!"func_rhs"]) .nil)))))))))))⟩

/-- parser/src/parser_core.rs:160 -/
def _subexpression_kernel : Fn :=
  ⟨none, n!"_subexpression_kernel", .none, [n!"parent", n!"source", n!"position", n!"func"], some (.block (.letS (.var n!"temp_position")
      false (.path [n!"position"])
    (.letS (.tuple [n!"valid", n!"position"]) false (.call (.path [n!"func"]) (.cons (.path [n!"parent"]) (.cons (.path [n!"source"]) (.cons
      (.path [n!"temp_position"]) .nil))))
    (.exprS (.ite (.not (.path [n!"valid"])) (.block (.exprS (.ret (.tuple (.cons (.bool false) (.cons (.path [n!"temp_position"]) .nil))))
    .nil)) (.tuple .nil))
    (.tail (.tuple (.cons (.bool true) (.cons (.path [n!"position"]) .nil))))))))⟩

/-- parser/src/parser_core.rs:174 -/
def _subexpression : Fn :=
  ⟨none, n!"_subexpression", .none, [n!"func"], some (.block (.tail (.clo [n!"parent", n!"source", n!"position"] (.block (.tail (.call
      (.path [n!"_subexpression_kernel"]) (.cons (.path [n!"parent"]) (.cons (.path [n!"source"]) (.cons (.path [n!"position"]) (.cons
      (.path [n!"func"]) .nil))))))))))⟩

/-- parser/src/parser_core.rs:182 -/
def _terminal_kernel : Fn :=
  ⟨none, n!"_terminal_kernel", .none, [n!"source", n!"position", n!"chr"], some (.block (.letS (.var n!"char") false (.meth (.path
      [n!"source"]) n!"get_char" (.cons (.path [n!"position"]) .nil))
    (.tail (.ite (.bin .eq (.path [n!"char"]) (.call (.path [n!"Some"]) (.cons (.path [n!"chr"]) .nil))) (.block (.tail (.tuple (.cons
      (.bool true) (.cons (.bin .add (.path [n!"position"]) (.int 1)) .nil))))) (.block (.tail (.tuple (.cons (.bool false) (.cons (.path
      [n!"position"]) .nil)))))))))⟩

/-- parser/src/parser_core.rs:192 -/
def _terminal : Fn :=
  ⟨none, n!"_terminal", .none, [n!"chr"], some (.block (.tail (.clo [n!"_parent", n!"source", n!"position"] (.call (.path
      [n!"_terminal_kernel"]) (.cons (.path [n!"source"]) (.cons (.path [n!"position"]) (.cons (.path [n!"chr"]) .nil)))))))⟩

/-- parser/src/parser_core.rs:196 -/
def _zero_or_more_kernel : Fn :=
  ⟨none, n!"_zero_or_more_kernel", .none, [n!"parent", n!"source", n!"position", n!"func"], some (.block (.letS (.var n!"temp_position")
      true (.path [n!"position"])
    (.exprS (.loop (.block (.letS (.tuple [n!"valid", n!"position"]) false (.call (.path [n!"func"]) (.cons (.path [n!"parent"]) (.cons
      (.path [n!"source"]) (.cons (.path [n!"temp_position"]) .nil))))
    (.exprS (.ite (.not (.path [n!"valid"])) (.block (.exprS .brk
    .nil)) (.tuple .nil))
    (.exprS (.assign (.path [n!"temp_position"]) (.path [n!"position"]))
    .nil)))))
    (.tail (.tuple (.cons (.bool true) (.cons (.path [n!"temp_position"]) .nil)))))))⟩

/-- parser/src/parser_core.rs:214 -/
def _zero_or_more : Fn :=
  ⟨none, n!"_zero_or_more", .none, [n!"func"], some (.block (.tail (.clo [n!"parent", n!"source", n!"position"] (.block (.tail (.call (.path
      [n!"_zero_or_more_kernel"]) (.cons (.path [n!"parent"]) (.cons (.path [n!"source"]) (.cons (.path [n!"position"]) (.cons (.path
      [n!"func"]) .nil))))))))))⟩

/-- parser/src/parser_core.rs:224 -/
def _string_terminal_kernel_ascii_opt : Fn :=
  ⟨none, n!"_string_terminal_kernel_ascii_opt", .none, [n!"source", n!"position", n!"data"], some (.block (.letS (.var n!"end_position")
      true (.path [n!"position"])
    (.exprS (.forIn (.var n!"char") (.path [n!"data"]) (.block (.letS (.var n!"s") false (.mtch (.meth (.path [n!"source"]) n!"get_char"
      (.cons (.path [n!"end_position"]) .nil)) (.cons .none (.ret (.tuple (.cons (.bool false) (.cons (.path [n!"position"]) .nil)))) (.cons
      (.some n!"val") (.path [n!"val"]) .nil)))
    (.tail (.ite (.bin .eq (.deref (.path [n!"char"])) (.path [n!"s"])) (.block (.exprS (.addAssign (.path [n!"end_position"]) (.int 1))
    .nil)) (.block (.exprS (.ret (.tuple (.cons (.bool false) (.cons (.path [n!"position"]) .nil))))
    .nil)))))))
    (.tail (.tuple (.cons (.bool true) (.cons (.path [n!"end_position"]) .nil)))))))⟩

/-- parser/src/parser_core.rs:240 -/
def _string_terminal_opt_ascii : Fn :=
  ⟨none, n!"_string_terminal_opt_ascii", .none, [n!"data"], some (.block (.tail (.clo [n!"_parent", n!"source", n!"position"] (.block (.tail
      (.call (.path [n!"_string_terminal_kernel_ascii_opt"]) (.cons (.path [n!"source"]) (.cons (.path [n!"position"]) (.cons (.path
      [n!"data"]) .nil)))))))))⟩

/-- parser/src/parser_core.rs:246 -/
def _ordered_choice_match_range_kernel : Fn :=
  ⟨none, n!"_ordered_choice_match_range_kernel", .none, [n!"source", n!"position", n!"start", n!"end"], some (.block (.letS (.var n!"chr")
      false (.meth (.path [n!"source"]) n!"get_char" (.cons (.path [n!"position"]) .nil))
    (.tail (.mtch (.path [n!"chr"]) (.cons (.some n!"value") (.block (.tail (.ite (.bin .and (.bin .ge (.cast (.path [n!"value"]) n!"u32")
      (.path [n!"start"])) (.bin .le (.cast (.path [n!"value"]) n!"u32") (.path [n!"end"]))) (.block (.tail (.tuple (.cons (.bool true)
      (.cons (.bin .add (.path [n!"position"]) (.int 1)) .nil))))) (.block (.tail (.tuple (.cons (.bool false) (.cons (.path [n!"position"])
      .nil)))))))) (.cons .none (.tuple (.cons (.bool false) (.cons (.path [n!"position"]) .nil))) .nil))))))⟩

/-- parser/src/parser_core.rs:265 -/
def _ordered_choice_match_range : Fn :=
  ⟨none, n!"_ordered_choice_match_range", .none, [n!"start", n!"end"], some (.block (.tail (.clo [n!"_parent", n!"source", n!"position"]
      (.block (.tail (.call (.path [n!"_ordered_choice_match_range_kernel"]) (.cons (.path [n!"source"]) (.cons (.path [n!"position"])
      (.cons (.path [n!"start"]) (.cons (.path [n!"end"]) .nil))))))))))⟩

/-- The items of parser/src/parser_core.rs. -/
def parserCoreItems : List Item :=
  [.fn _and_predicate_kernel, .fn _and_predicate, .fn _not_predicate_kernel, .fn _not_predicate, .fn _one_or_more_kernel, .fn _one_or_more, .fn
   _optional_kernel, .fn _optional, .fn _ordered_choice_kernel, .fn _ordered_choice, .fn _sequence_kernel, .fn _sequence, .fn
   _subexpression_kernel, .fn _subexpression, .fn _terminal_kernel, .fn _terminal, .fn _zero_or_more_kernel, .fn _zero_or_more, .fn
   _string_terminal_kernel_ascii_opt, .fn _string_terminal_opt_ascii, .fn _ordered_choice_match_range_kernel, .fn
   _ordered_choice_match_range]

/-- parser/src/var_name.rs:6 -/
def memoized_behaviour : Fn :=
  ⟨none, n!"memoized_behaviour", .none, [n!"context", n!"_rule", n!"parent", n!"is_true", n!"_start_position", n!"end_position",
      n!"memoized_key"], some (.block (.exprS (.meth (.meth (.path [n!"context"]) n!"borrow_mut" .nil) n!"connect" (.cons (.path
      [n!"parent"]) (.cons (.path [n!"memoized_key"]) .nil)))
    (.tail (.tuple (.cons (.path [n!"is_true"]) (.cons (.path [n!"end_position"]) .nil))))))⟩

/-- parser/src/var_name.rs:20 -/
def default_behaviour : Fn :=
  ⟨none, n!"default_behaviour", .none, [n!"user_state", n!"source", n!"func", n!"context", n!"rule", n!"parent", n!"start_position"], some
      (.block (.letS (.var n!"current_key") false (.meth (.meth (.path [n!"context"]) n!"borrow_mut" .nil) n!"reserve_publisher_entry"
      (.cons (.path [n!"rule"]) .nil))
    (.letS (.var n!"f") false (.call (.path [n!"func"]) (.cons (.path [n!"user_state"]) (.cons (.path [n!"current_key"]) (.cons (.path
      [n!"context"]) (.cons (.path [n!"source"]) (.cons (.path [n!"start_position"]) .nil))))))
    (.letS (.var n!"c") true (.meth (.path [n!"context"]) n!"borrow_mut" .nil)
    (.exprS (.meth (.path [n!"c"]) n!"create_cache_entry" (.cons (.path [n!"rule"]) (.cons (.field (.path [n!"f"]) 0) (.cons (.path
      [n!"start_position"]) (.cons (.field (.path [n!"f"]) 1) (.cons (.path [n!"current_key"]) .nil))))))
    (.exprS (.meth (.path [n!"c"]) n!"update_publisher_entry" (.cons (.path [n!"current_key"]) (.cons (.field (.path [n!"f"]) 0) (.cons
      (.path [n!"start_position"]) (.cons (.field (.path [n!"f"]) 1) .nil)))))
    (.exprS (.meth (.path [n!"c"]) n!"connect" (.cons (.path [n!"parent"]) (.cons (.path [n!"current_key"]) .nil)))
    (.tail (.path [n!"f"])))))))))⟩

/-- parser/src/var_name.rs:41 -/
def _var_name : Fn :=
  ⟨none, n!"_var_name", .none, [n!"user_state", n!"rule", n!"context", n!"func"], some (.block (.tail (.clo [n!"parent", n!"source",
      n!"position"] (.block (.tail (.call (.path [n!"_var_name_kernel"]) (.cons (.path [n!"user_state"]) (.cons (.path [n!"rule"]) (.cons
      (.path [n!"context"]) (.cons (.path [n!"parent"]) (.cons (.path [n!"source"]) (.cons (.path [n!"position"]) (.cons (.path [n!"func"])
      .nil)))))))))))))⟩

/-- parser/src/var_name.rs:53 -/
def _var_name_kernel : Fn :=
  ⟨none, n!"_var_name_kernel", .none, [n!"user_state", n!"rule", n!"context", n!"parent", n!"source", n!"position", n!"func"], some (.block
      (.letS (.var n!"memo") false (.meth (.meth (.path [n!"context"]) n!"borrow" .nil) n!"check" (.cons (.path [n!"rule"]) (.cons (.path
      [n!"position"]) .nil)))
    (.tail (.mtch (.path [n!"memo"]) (.cons (.someTuple [n!"is_true", n!"end_position", n!"memoized_key"]) (.call (.path
      [n!"memoized_behaviour"]) (.cons (.path [n!"context"]) (.cons (.path [n!"rule"]) (.cons (.path [n!"parent"]) (.cons (.path
      [n!"is_true"]) (.cons (.path [n!"position"]) (.cons (.path [n!"end_position"]) (.cons (.path [n!"memoized_key"]) .nil)))))))) (.cons
      .none (.call (.path [n!"default_behaviour"]) (.cons (.path [n!"user_state"]) (.cons (.path [n!"source"]) (.cons (.path [n!"func"])
      (.cons (.path [n!"context"]) (.cons (.path [n!"rule"]) (.cons (.path [n!"parent"]) (.cons (.path [n!"position"]) .nil))))))))
      .nil))))))⟩

/-- parser/src/var_name.rs:78 -/
def _var_name_indirect_left_recursion : Fn :=
  ⟨none, n!"_var_name_indirect_left_recursion", .none, [n!"user_state", n!"involved_set", n!"rule", n!"context", n!"func"], some (.block
      (.tail (.clo [n!"parent", n!"source", n!"position"] (.block (.tail (.call (.path [n!"_var_name_kernel_indirect_left_recursion"])
      (.cons (.path [n!"user_state"]) (.cons (.path [n!"involved_set"]) (.cons (.path [n!"rule"]) (.cons (.path [n!"context"]) (.cons (.path
      [n!"parent"]) (.cons (.path [n!"source"]) (.cons (.path [n!"position"]) (.cons (.path [n!"func"]) .nil))))))))))))))⟩

/-- parser/src/var_name.rs:99 -/
def convert_vec_to_btree_set : Fn :=
  ⟨none, n!"convert_vec_to_btree_set", .none, [n!"involved_set"], some (.block (.letS (.var n!"involved") true (.call (.path [n!"BTreeSet",
      n!"new"]) .nil)
    (.exprS (.forIn (.var n!"r") (.path [n!"involved_set"]) (.block (.exprS (.meth (.path [n!"involved"]) n!"insert" (.cons (.deref (.path
      [n!"r"])) .nil))
    .nil)))
    (.tail (.path [n!"involved"])))))⟩

/-- parser/src/var_name.rs:109 -/
def _var_name_kernel_growth_function : Fn :=
  ⟨none, n!"_var_name_kernel_growth_function", .none, [n!"user_state", n!"involved_set", n!"rule", n!"context", n!"parent", n!"source",
      n!"position", n!"func", n!"last_lr_position"], some (.block (.letU n!"result"
    (.letS (.var n!"last_result") true (.tuple (.cons (.bool false) (.cons (.path [n!"position"]) .nil)))
    (.letS (.var n!"last_key") true (.meth (.meth (.path [n!"context"]) n!"borrow_mut" .nil) n!"reserve_publisher_entry" (.cons (.path
      [n!"rule"]) .nil))
    (.exprS (.meth (.meth (.path [n!"context"]) n!"borrow_mut" .nil) n!"update_publisher_entry" (.cons (.path [n!"last_key"]) (.cons (.bool
      false) (.cons (.int 0) (.cons (.int 0) .nil)))))
    (.letS (.var n!"current_key") true (.meth (.meth (.path [n!"context"]) n!"borrow_mut" .nil) n!"reserve_publisher_entry" (.cons (.path
      [n!"rule"]) .nil))
    (.letS (.var n!"previous_active_lr_position") false (.path [n!"last_lr_position"])
    (.exprS (.block (.letS (.var n!"involved_btree") false (.call (.path [n!"convert_vec_to_btree_set"]) (.cons (.path [n!"involved_set"])
      .nil))
    (.exprS (.meth (.meth (.path [n!"context"]) n!"borrow_mut" .nil) n!"set_head" (.cons (.path [n!"position"]) (.cons (.path [n!"rule"])
      (.cons (.path [n!"involved_btree"]) .nil))))
    (.tail (.loop (.block (.exprS (.meth (.meth (.path [n!"context"]) n!"borrow_mut" .nil) n!"reinitialize_eval_set" (.cons (.path
      [n!"rule"]) (.cons (.path [n!"position"]) .nil)))
    (.exprS (.assign (.path [n!"result"]) (.call (.path [n!"func"]) (.cons (.path [n!"user_state"]) (.cons (.path [n!"current_key"]) (.cons
      (.path [n!"context"]) (.cons (.path [n!"source"]) (.cons (.path [n!"position"]) .nil)))))))
    (.letS (.var n!"memo_result") false (.meth (.meth (.path [n!"context"]) n!"borrow_mut" .nil) n!"check" (.cons (.path [n!"rule"]) (.cons
      (.path [n!"position"]) .nil)))
    (.exprS (.mtch (.path [n!"memo_result"]) (.cons .none (.block .nil) (.cons (.some n!"memo_result") (.block (.exprS (.assign (.path
      [n!"current_key"]) (.field (.path [n!"memo_result"]) 2))
    (.exprS (.assign (.path [n!"result"]) (.tuple (.cons (.field (.path [n!"memo_result"]) 0) (.cons (.field (.path [n!"memo_result"]) 1)
      .nil))))
    .nil))) .nil)))
    (.exprS (.meth (.meth (.path [n!"context"]) n!"borrow_mut" .nil) n!"update_publisher_entry" (.cons (.path [n!"current_key"]) (.cons
      (.field (.path [n!"result"]) 0) (.cons (.path [n!"position"]) (.cons (.field (.path [n!"result"]) 1) .nil)))))
    (.exprS (.ite (.bin .or (.not (.field (.path [n!"result"]) 0)) (.bin .le (.field (.path [n!"result"]) 1) (.field (.path
      [n!"last_result"]) 1))) (.block (.exprS (.meth (.meth (.path [n!"context"]) n!"borrow_mut" .nil) n!"connect" (.cons (.path
      [n!"parent"]) (.cons (.path [n!"last_key"]) .nil)))
    (.exprS (.meth (.meth (.path [n!"context"]) n!"borrow_mut" .nil) n!"set_current_active_lr_position" (.cons (.path
      [n!"previous_active_lr_position"]) .nil))
    (.exprS (.meth (.meth (.path [n!"context"]) n!"borrow_mut" .nil) n!"create_cache_entry" (.cons (.path [n!"rule"]) (.cons (.field (.path
      [n!"last_result"]) 0) (.cons (.path [n!"position"]) (.cons (.field (.path [n!"last_result"]) 1) (.cons (.path [n!"last_key"])
      .nil))))))
    (.exprS .brk
    .nil))))) (.tuple .nil))
    (.exprS (.assign (.path [n!"last_result"]) (.path [n!"result"]))
    (.exprS (.assign (.path [n!"last_key"]) (.path [n!"current_key"]))
    (.exprS (.assign (.path [n!"current_key"]) (.meth (.meth (.path [n!"context"]) n!"borrow_mut" .nil) n!"reserve_publisher_entry" (.cons
      (.path [n!"rule"]) .nil)))
    .nil)))))))))))))))
    (.tail (.path [n!"last_result"]))))))))))⟩

/-- parser/src/var_name.rs:173 -/
def should_go_into_growth_function : Fn :=
  ⟨none, n!"should_go_into_growth_function", .none, [n!"rule", n!"context", n!"position"], some (.block (.letS (.var n!"ctx") true (.meth
      (.path [n!"context"]) n!"borrow_mut" .nil)
    (.letS (.var n!"active_lr_position") false (.meth (.path [n!"ctx"]) n!"get_current_active_lr_position" .nil)
    (.tail (.mtch (.path [n!"active_lr_position"]) (.cons .none (.block (.letS (.var n!"last_lr_position") false (.meth (.path [n!"ctx"])
      n!"get_current_active_lr_position" .nil)
    (.exprS (.meth (.path [n!"ctx"]) n!"set_current_active_lr_position" (.cons (.call (.path [n!"Some"]) (.cons (.tuple (.cons (.path
      [n!"rule"]) (.cons (.path [n!"position"]) .nil))) .nil)) .nil))
    (.tail (.tuple (.cons (.bool true) (.cons (.path [n!"last_lr_position"]) .nil))))))) (.cons (.some n!"lr_position") (.block (.letS (.var
      n!"head") false (.meth (.path [n!"ctx"]) n!"check_head" (.cons (.path [n!"rule"]) (.cons (.path [n!"position"]) .nil)))
    (.tail (.ite (.meth (.path [n!"head"]) n!"is_some" .nil) (.block (.tail (.tuple (.cons (.bool false) (.cons (.path [n!"None"]) .nil)))))
      (.ite (.meth (.path [n!"ctx"]) n!"rule_in_involved_set" (.cons (.path [n!"lr_position"]) (.cons (.path [n!"rule"]) .nil))) (.block
      (.tail (.tuple (.cons (.bool false) (.cons (.path [n!"None"]) .nil))))) (.block (.letS (.var n!"last_lr_position") false (.meth (.path
      [n!"ctx"]) n!"get_current_active_lr_position" .nil)
    (.exprS (.meth (.path [n!"ctx"]) n!"set_current_active_lr_position" (.cons (.call (.path [n!"Some"]) (.cons (.tuple (.cons (.path
      [n!"rule"]) (.cons (.path [n!"position"]) .nil))) .nil)) .nil))
    (.tail (.tuple (.cons (.bool true) (.cons (.path [n!"last_lr_position"]) .nil)))))))))))) .nil)))))))⟩

/-- parser/src/var_name.rs:205 -/
def _var_name_kernel_indirect_left_recursion : Fn :=
  ⟨none, n!"_var_name_kernel_indirect_left_recursion", .none, [n!"user_state", n!"involved_set", n!"rule", n!"context", n!"parent",
      n!"source", n!"position", n!"func"], some (.block (.letS (.var n!"should") false (.call (.path [n!"should_go_into_growth_function"])
      (.cons (.path [n!"rule"]) (.cons (.path [n!"context"]) (.cons (.path [n!"position"]) .nil))))
    (.tail (.ite (.field (.path [n!"should"]) 0) (.block (.tail (.call (.path [n!"_var_name_kernel_growth_function"]) (.cons (.path
      [n!"user_state"]) (.cons (.path [n!"involved_set"]) (.cons (.path [n!"rule"]) (.cons (.path [n!"context"]) (.cons (.path [n!"parent"])
      (.cons (.path [n!"source"]) (.cons (.path [n!"position"]) (.cons (.path [n!"func"]) (.cons (.field (.path [n!"should"]) 1)
      .nil)))))))))))) (.block (.letS (.var n!"active_lr_position") false (.meth (.meth (.meth (.path [n!"context"]) n!"borrow" .nil)
      n!"get_current_active_lr_position" .nil) n!"expect" (.cons (.str n!"Active LR Should exist when in LR code.") .nil))
    (.letS (.var n!"is_in_eval_set") false (.meth (.meth (.path [n!"context"]) n!"borrow" .nil) n!"rule_in_eval_set" (.cons (.path
      [n!"active_lr_position"]) (.cons (.path [n!"rule"]) .nil)))
    (.tail (.ite (.path [n!"is_in_eval_set"]) (.block (.letS (.var n!"current_key") false (.meth (.meth (.path [n!"context"]) n!"borrow_mut"
      .nil) n!"reserve_publisher_entry" (.cons (.path [n!"rule"]) .nil))
    (.exprS (.meth (.meth (.path [n!"context"]) n!"borrow_mut" .nil) n!"remove_from_eval_set" (.cons (.path [n!"active_lr_position"]) (.cons
      (.path [n!"rule"]) .nil)))
    (.letS (.var n!"result") false (.call (.path [n!"func"]) (.cons (.path [n!"user_state"]) (.cons (.path [n!"current_key"]) (.cons (.path
      [n!"context"]) (.cons (.path [n!"source"]) (.cons (.path [n!"position"]) .nil))))))
    (.exprS (.meth (.meth (.path [n!"context"]) n!"borrow_mut" .nil) n!"update_publisher_entry" (.cons (.path [n!"current_key"]) (.cons
      (.field (.path [n!"result"]) 0) (.cons (.path [n!"position"]) (.cons (.field (.path [n!"result"]) 1) .nil)))))
    (.exprS (.meth (.meth (.path [n!"context"]) n!"borrow_mut" .nil) n!"create_cache_entry" (.cons (.path [n!"rule"]) (.cons (.field (.path
      [n!"result"]) 0) (.cons (.path [n!"position"]) (.cons (.field (.path [n!"result"]) 1) (.cons (.path [n!"current_key"]) .nil))))))
    (.exprS (.meth (.meth (.path [n!"context"]) n!"borrow_mut" .nil) n!"connect" (.cons (.path [n!"parent"]) (.cons (.path
      [n!"current_key"]) .nil)))
    (.tail (.path [n!"result"]))))))))) (.block (.letS (.var n!"memo") false (.meth (.meth (.path [n!"context"]) n!"borrow" .nil) n!"check"
      (.cons (.path [n!"rule"]) (.cons (.path [n!"position"]) .nil)))
    (.tail (.mtch (.path [n!"memo"]) (.cons (.some n!"memo") (.block (.exprS (.meth (.meth (.path [n!"context"]) n!"borrow_mut" .nil)
      n!"connect_if_not_connected" (.cons (.path [n!"parent"]) (.cons (.field (.path [n!"memo"]) 2) .nil)))
    (.tail (.tuple (.cons (.field (.path [n!"memo"]) 0) (.cons (.field (.path [n!"memo"]) 1) .nil)))))) (.cons .none (.tuple (.cons (.bool
      false) (.cons (.path [n!"position"]) .nil))) .nil)))))))))))))))⟩

/-- The items of parser/src/var_name.rs. -/
def varNameItems : List Item :=
  [.fn memoized_behaviour, .fn default_behaviour, .fn _var_name, .fn _var_name_kernel, .fn _var_name_indirect_left_recursion, .fn
   convert_vec_to_btree_set, .fn _var_name_kernel_growth_function, .fn should_go_into_growth_function, .fn
   _var_name_kernel_indirect_left_recursion]

/-- parser/src/parse.rs:10 -/
def parse : Fn :=
  ⟨none, n!"parse", .none, [n!"source"], some (.block (.letS (.var n!"src_len") false (.cast (.meth (.path [n!"source"]) n!"len" .nil)
      n!"u32")
    (.letS (.var n!"source") false (.call (.path [n!"Source", n!"new"]) (.cons (.path [n!"source"]) .nil))
    (.letS (.var n!"position") false (.int 0)
    (.letS (.var n!"context") false (.call (.path [n!"RefCell", n!"new"]) (.cons (.call (.path [n!"BasicContext", n!"new"]) (.cons (.cast
      (.path [n!"src_len"]) n!"usize") (.cons (.cast (.path [n!"RULES_SIZE"]) n!"usize") .nil))) .nil))
    (.letS (.var n!"user_state") false (.call (.path [n!"RefCell", n!"new"]) (.cons (.call (.path [n!"UserState", n!"new"]) .nil) .nil))
    (.letU n!"result"
    (.exprS (.block (.letS (.var n!"executor") false (.call (.path [n!"_var_name"]) (.cons (.ref (.path [n!"user_state"])) (.cons (.path
      [n!"Rules", n!"Grammar"]) (.cons (.ref (.path [n!"context"])) (.cons (.path [n!"grammar"]) .nil)))))
    (.exprS (.assign (.path [n!"result"]) (.call (.path [n!"executor"]) (.cons (.call (.path [n!"Key"]) (.cons (.int 0) .nil)) (.cons (.ref
      (.path [n!"source"])) (.cons (.path [n!"position"]) .nil)))))
    .nil)))
    (.letS (.var n!"gen_code") false (.meth (.meth (.meth (.path [n!"context"]) n!"into_inner" .nil) n!"get_publisher" .nil) n!"clear_false"
      .nil)
    (.tail (.tuple (.cons (.field (.path [n!"result"]) 0) (.cons (.field (.path [n!"result"]) 1) (.cons (.path [n!"gen_code"])
      .nil))))))))))))))⟩

/-- The items of parser/src/parse.rs. -/
def parseItems : List Item :=
  [.fn parse]

/-- parser/src/user_state.rs:11 -/
def UserState.default : Fn :=
  ⟨(some n!"UserState"), n!"default", .none, [], some (.block (.tail (.call (.path [n!"UserState", n!"new"]) .nil)))⟩

/-- parser/src/user_state.rs:17 -/
def UserState.new : Fn :=
  ⟨(some n!"UserState"), n!"new", .none, [], some (.block (.tail (.path [n!"UserState"])))⟩

/-- The items of parser/src/user_state.rs. -/
def userStateItems : List Item :=
  [.unitStruct n!"UserState", .fn UserState.default, .fn UserState.new]

/-- The items of parser/src/hooked_calls.rs. -/
def hookedCallsItems : List Item :=
  []

/-- examples/example_11_external_rule_call_parser/src/user_state.rs:13 -/
def Ex11.UserState.default : Fn :=
  ⟨(some n!"UserState"), n!"default", .none, [], some (.block (.tail (.call (.path [n!"UserState", n!"new"]) .nil)))⟩

/-- examples/example_11_external_rule_call_parser/src/user_state.rs:19 -/
def Ex11.UserState.new : Fn :=
  ⟨(some n!"UserState"), n!"new", .none, [], some (.block (.tail (.call (.path [n!"UserState"]) (.cons (.call (.path [n!"HashSet", n!"new"])
      .nil) .nil))))⟩

/-- The items of examples/example_11_external_rule_call_parser/src/user_state.rs. -/
def ex11UserStateItems : List Item :=
  [.tupleStruct n!"UserState", .fn Ex11.UserState.default, .fn Ex11.UserState.new]

/-- examples/example_11_external_rule_call_parser/src/hooked_calls.rs:9 -/
def Ex11.unique_line_cache : Fn :=
  ⟨none, n!"unique_line_cache", .none, [n!"user_state", n!"_parent", n!"_context", n!"_source", n!"_position", n!"func"], some (.block
      (.tail (.clo [n!"parent", n!"source", n!"position"] (.block (.exprS (.mac n!"println" (.cons (.str n!"Before function execution")
      .nil))
    (.letS (.var n!"result") false (.call (.path [n!"func"]) (.cons (.path [n!"parent"]) (.cons (.path [n!"source"]) (.cons (.path
      [n!"position"]) .nil))))
    (.exprS (.ite (.field (.path [n!"result"]) 0) (.block (.letS (.var n!"unique_line") false (.meth (.meth (.path [n!"source"])
      n!"get_string" (.cons (.path [n!"position"]) (.cons (.field (.path [n!"result"]) 1) .nil))) n!"expect" (.cons (.str
      n!"If it crashes here there is a logical error as we should never go out of bounds.") .nil))
    (.letS (.var n!"user_state") true (.meth (.path [n!"user_state"]) n!"borrow_mut" .nil)
    (.letS (.var n!"did_not_exist_before") false (.meth (.field (.path [n!"user_state"]) 0) n!"insert" (.cons (.meth (.path
      [n!"unique_line"]) n!"to_string" .nil) .nil))
    (.tail (.ite (.path [n!"did_not_exist_before"]) (.block .nil) (.block (.exprS (.ret (.tuple (.cons (.bool false) (.cons (.path
      [n!"position"]) .nil))))
    .nil)))))))) (.tuple .nil))
    (.exprS (.mac n!"println" (.cons (.str n!"Result is {:?} {:?}") (.cons (.field (.path [n!"result"]) 0) (.cons (.field (.path
      [n!"result"]) 1) .nil))))
    (.exprS (.mac n!"println" (.cons (.str n!"After function execution") .nil))
    (.tail (.path [n!"result"])))))))))))⟩

/-- The items of examples/example_11_external_rule_call_parser/src/hooked_calls.rs. -/
def ex11HookedCallsItems : List Item :=
  [.fn Ex11.unique_line_cache]

/-- examples/example_1/src/lib.rs:4 -/
def Calc1.evaluate_tree : Fn :=
  ⟨none, n!"evaluate_tree", .none, [n!"publisher", n!"source"], some (.block (.letS (.var n!"publisher") false (.meth (.path
      [n!"publisher"]) n!"clear_false" .nil)
    (.letS (.var n!"grammar_node") false (.meth (.path [n!"publisher"]) n!"get_node" (.cons (.call (.path [n!"Key"]) (.cons (.int 0) .nil))
      .nil))
    (.tail (.call (.path [n!"evaluate_tree_kernel"]) (.cons (.ref (.path [n!"publisher"])) (.cons (.path [n!"source"]) (.cons (.path
      [n!"grammar_node"]) .nil))))))))⟩

/-- examples/example_1/src/lib.rs:10 -/
def Calc1.evaluate_tree_kernel : Fn :=
  ⟨none, n!"evaluate_tree_kernel", .none, [n!"publisher", n!"source", n!"node"], some (.block (.letS (.var n!"results") true (.call (.path
      [n!"Vec", n!"new"]) .nil)
    (.exprS (.forIn (.var n!"child_key") (.meth (.path [n!"node"]) n!"get_children" .nil) (.block (.letS (.var n!"child") false (.meth
      (.path [n!"publisher"]) n!"get_node" (.cons (.deref (.path [n!"child_key"])) .nil))
    (.letU n!"result"
    (.exprS (.mtch (.field (.path [n!"child"]) n!"rule") (.cons (.variants [(n!"Rules", n!"Grammar")]) (.block (.exprS (.assign (.path
      [n!"result"]) (.call (.path [n!"evaluate_tree_kernel"]) (.cons (.path [n!"publisher"]) (.cons (.path [n!"source"]) (.cons (.path
      [n!"child"]) .nil)))))
    (.exprS (.mac n!"println" (.cons (.str n!"Grammar Result: {result}") .nil))
    .nil))) (.cons (.variants [(n!"Rules", n!"Expr")]) (.block (.exprS (.assign (.path [n!"result"]) (.call (.path
      [n!"evaluate_tree_kernel"]) (.cons (.path [n!"publisher"]) (.cons (.path [n!"source"]) (.cons (.path [n!"child"]) .nil)))))
    (.exprS (.mac n!"println" (.cons (.str n!"Expression Result: {result}") .nil))
    .nil))) (.cons (.variants [(n!"Rules", n!"Addition")]) (.block (.exprS (.assign (.path [n!"result"]) (.call (.path
      [n!"evaluate_tree_kernel"]) (.cons (.path [n!"publisher"]) (.cons (.path [n!"source"]) (.cons (.path [n!"child"]) .nil)))))
    (.exprS (.mac n!"println" (.cons (.str n!"Addition Result: {result}") .nil))
    .nil))) (.cons (.variants [(n!"Rules", n!"Subtraction")]) (.block (.exprS (.assign (.path [n!"result"]) (.call (.path
      [n!"evaluate_tree_kernel"]) (.cons (.path [n!"publisher"]) (.cons (.path [n!"source"]) (.cons (.path [n!"child"]) .nil)))))
    (.exprS (.mac n!"println" (.cons (.str n!"Subtraction Result: {result}") .nil))
    .nil))) (.cons (.variants [(n!"Rules", n!"Integer")]) (.block (.letS (.var n!"integer") false (.meth (.path [n!"child"]) n!"get_string"
      (.cons (.path [n!"source"]) .nil))
    (.exprS (.mac n!"println" (.cons (.str n!"Integer String: {integer}") .nil))
    (.letS (.var n!"integer") false (.meth (.meth (.path [n!"integer"]) n!"parse" .nil) n!"expect" (.cons (.str n!"Should be valid integer")
      .nil))
    (.exprS (.assign (.path [n!"result"]) (.path [n!"integer"]))
    (.exprS (.mac n!"println" (.cons (.str n!"Integer Result: {result}") .nil))
    .nil)))))) .nil))))))
    (.exprS (.meth (.path [n!"results"]) n!"push" (.cons (.path [n!"result"]) .nil))
    .nil))))))
    (.exprS (.mac n!"println" (.cons (.str n!"Results: {results:?}") .nil))
    (.exprS (.ite (.bin .eq (.field (.path [n!"node"]) n!"rule") (.path [n!"Rules", n!"Subtraction"])) (.block (.tail (.assign (.index
      (.path [n!"results"]) (.int 1)) (.neg (.index (.path [n!"results"]) (.int 1)))))) (.tuple .nil))
    (.tail (.meth (.meth (.path [n!"results"]) n!"iter" .nil) n!"sum" .nil)))))))⟩

/-- The items of examples/example_1/src/lib.rs. -/
def calc1LibItems : List Item :=
  [.fn Calc1.evaluate_tree, .fn Calc1.evaluate_tree_kernel]

/-- examples/example_2/src/lib.rs:3 -/
def Calc2.evaluate_tree : Fn :=
  ⟨none, n!"evaluate_tree", .none, [n!"publisher", n!"source"], some (.block (.letS (.var n!"publisher") false (.meth (.path
      [n!"publisher"]) n!"clear_false" .nil)
    (.letS (.var n!"grammar_node") false (.meth (.path [n!"publisher"]) n!"get_node" (.cons (.call (.path [n!"Key"]) (.cons (.int 0) .nil))
      .nil))
    (.tail (.call (.path [n!"evaluate_tree_kernel"]) (.cons (.ref (.path [n!"publisher"])) (.cons (.path [n!"source"]) (.cons (.path
      [n!"grammar_node"]) .nil))))))))⟩

/-- examples/example_2/src/lib.rs:10 -/
def Calc2.evaluate_tree_kernel : Fn :=
  ⟨none, n!"evaluate_tree_kernel", .none, [n!"publisher", n!"source", n!"node"], some (.block (.letS (.var n!"results") true (.meth (.str
      n!"") n!"to_string" .nil)
    (.exprS (.forIn (.var n!"child_key") (.meth (.path [n!"node"]) n!"get_children" .nil) (.block (.letS (.var n!"child") false (.meth
      (.path [n!"publisher"]) n!"get_node" (.cons (.deref (.path [n!"child_key"])) .nil))
    (.letU n!"result"
    (.exprS (.mtch (.field (.path [n!"child"]) n!"rule") (.cons (.variants [(n!"Rules", n!"Grammar")]) (.block (.exprS (.assign (.path
      [n!"result"]) (.call (.path [n!"evaluate_tree_kernel"]) (.cons (.path [n!"publisher"]) (.cons (.path [n!"source"]) (.cons (.path
      [n!"child"]) .nil)))))
    (.exprS (.mac n!"println" (.cons (.str n!"Grammar Result: {result}") .nil))
    .nil))) (.cons (.variants [(n!"Rules", n!"A")]) (.block (.exprS (.assign (.path [n!"result"]) (.call (.path [n!"evaluate_tree_kernel"])
      (.cons (.path [n!"publisher"]) (.cons (.path [n!"source"]) (.cons (.path [n!"child"]) .nil)))))
    (.exprS (.addAssign (.path [n!"result"]) (.str n!"a"))
    .nil))) (.cons (.variants [(n!"Rules", n!"B")]) (.block (.exprS (.assign (.path [n!"result"]) (.call (.path [n!"evaluate_tree_kernel"])
      (.cons (.path [n!"publisher"]) (.cons (.path [n!"source"]) (.cons (.path [n!"child"]) .nil)))))
    (.exprS (.addAssign (.path [n!"result"]) (.str n!"b"))
    .nil))) .nil))))
    (.exprS (.meth (.path [n!"results"]) n!"push_str" (.cons (.ref (.path [n!"result"])) .nil))
    .nil))))))
    (.tail (.path [n!"results"])))))⟩

/-- The items of examples/example_2/src/lib.rs. -/
def calc2LibItems : List Item :=
  [.fn Calc2.evaluate_tree, .fn Calc2.evaluate_tree_kernel]

/-- examples/example_3_basic_maths/src/lib.rs:5 -/
def Calc3.evaluate_tree : Fn :=
  ⟨none, n!"evaluate_tree", .none, [n!"publisher", n!"source"], some (.block (.letS (.var n!"publisher") false (.meth (.path
      [n!"publisher"]) n!"clear_false" .nil)
    (.letS (.var n!"grammar_node") false (.meth (.path [n!"publisher"]) n!"get_node" (.cons (.call (.path [n!"Key"]) (.cons (.int 0) .nil))
      .nil))
    (.tail (.call (.path [n!"evaluate_tree_kernel"]) (.cons (.ref (.path [n!"publisher"])) (.cons (.path [n!"source"]) (.cons (.path
      [n!"grammar_node"]) .nil))))))))⟩

/-- examples/example_3_basic_maths/src/lib.rs:11 -/
def Calc3.evaluate_binary_node : Fn :=
  ⟨none, n!"evaluate_binary_node", .none, [n!"publisher", n!"source", n!"node"], some (.block (.letS (.var n!"children") false (.meth (.path
      [n!"node"]) n!"get_children" .nil)
    (.exprS (.mac n!"debug_assert" (.cons (.bin .eq (.meth (.path [n!"children"]) n!"len" .nil) (.int 2)) .nil))
    (.letS (.var n!"lhs") false (.meth (.path [n!"publisher"]) n!"get_node" (.cons (.index (.path [n!"children"]) (.int 0)) .nil))
    (.letS (.var n!"lhs_result") false (.call (.path [n!"evaluate_tree_kernel"]) (.cons (.path [n!"publisher"]) (.cons (.path [n!"source"])
      (.cons (.path [n!"lhs"]) .nil))))
    (.letS (.var n!"rhs") false (.meth (.path [n!"publisher"]) n!"get_node" (.cons (.index (.path [n!"children"]) (.int 1)) .nil))
    (.letS (.var n!"rhs_result") false (.call (.path [n!"evaluate_tree_kernel"]) (.cons (.path [n!"publisher"]) (.cons (.path [n!"source"])
      (.cons (.path [n!"rhs"]) .nil))))
    (.tail (.tuple (.cons (.path [n!"lhs_result"]) (.cons (.path [n!"rhs_result"]) .nil)))))))))))⟩

/-- examples/example_3_basic_maths/src/lib.rs:22 -/
def Calc3.evaluate_number : Fn :=
  ⟨none, n!"evaluate_number", .none, [n!"publisher", n!"source", n!"node"], some (.block (.exprS (.mac n!"debug_assert" (.cons (.bin .eq
      (.field (.path [n!"node"]) n!"rule") (.path [n!"Rules", n!"Number"])) .nil))
    (.exprS (.mac n!"debug_assert" (.cons (.not (.meth (.meth (.path [n!"node"]) n!"get_children" .nil) n!"is_empty" .nil)) (.cons (.str
      n!"Must have at least one child, Integer") .nil)))
    (.letS (.var n!"children") false (.meth (.path [n!"node"]) n!"get_children" .nil)
    (.exprS (.ite (.bin .gt (.meth (.path [n!"children"]) n!"len" .nil) (.int 1)) (.block (.exprS (.mac n!"panic" (.cons (.str
      n!"We do not currently support Sign/Exponent/Fraction") .nil))
    .nil)) (.tuple .nil))
    (.letS (.var n!"integer_node") false (.meth (.path [n!"publisher"]) n!"get_node" (.cons (.index (.path [n!"children"]) (.int 0)) .nil))
    (.exprS (.mac n!"debug_assert" (.cons (.bin .eq (.field (.path [n!"integer_node"]) n!"rule") (.path [n!"Rules", n!"Integer"])) .nil))
    (.letS (.var n!"integer") false (.meth (.path [n!"integer_node"]) n!"get_string" (.cons (.path [n!"source"]) .nil))
    (.exprS (.mac n!"println" (.cons (.str n!"Integer String: {integer}") .nil))
    (.letS (.var n!"integer") false (.meth (.meth (.path [n!"integer"]) n!"parse" .nil) n!"expect" (.cons (.str n!"Should be valid integer")
      .nil))
    (.exprS (.mac n!"println" (.cons (.str n!"Integer i64: {integer}") .nil))
    (.tail (.path [n!"integer"])))))))))))))⟩

/-- examples/example_3_basic_maths/src/lib.rs:42 -/
def Calc3.evaluate_tree_kernel : Fn :=
  ⟨none, n!"evaluate_tree_kernel", .none, [n!"publisher", n!"source", n!"node"], some (.block (.letS (.var n!"evaluation_result") true
      (.path [n!"None"])
    (.exprS (.forIn (.var n!"child_key") (.meth (.path [n!"node"]) n!"get_children" .nil) (.block (.letS (.var n!"child") false (.meth
      (.path [n!"publisher"]) n!"get_node" (.cons (.deref (.path [n!"child_key"])) .nil))
    (.letU n!"result"
    (.tail (.mtch (.field (.path [n!"child"]) n!"rule") (.cons (.variants [(n!"Rules", n!"Grammar"), (n!"Rules", n!"Term"), (n!"Rules",
      n!"Factor"), (n!"Rules", n!"Expr"), (n!"Rules", n!"Parentheses")]) (.block (.exprS (.assign (.path [n!"result"]) (.call (.path
      [n!"evaluate_tree_kernel"]) (.cons (.path [n!"publisher"]) (.cons (.path [n!"source"]) (.cons (.path [n!"child"]) .nil)))))
    (.exprS (.mac n!"println" (.cons (.str n!"{:?} Result: {result}") (.cons (.field (.path [n!"child"]) n!"rule") .nil)))
    (.exprS (.assign (.path [n!"evaluation_result"]) (.call (.path [n!"Some"]) (.cons (.path [n!"result"]) .nil)))
    .nil)))) (.cons (.variants [(n!"Rules", n!"Addition")]) (.block (.letS (.tuple [n!"lhs", n!"rhs"]) false (.call (.path
      [n!"evaluate_binary_node"]) (.cons (.path [n!"publisher"]) (.cons (.path [n!"source"]) (.cons (.path [n!"child"]) .nil))))
    (.exprS (.mac n!"println" (.cons (.str n!"Addition Result: {lhs} + {rhs} = {}") (.cons (.bin .add (.path [n!"lhs"]) (.path [n!"rhs"]))
      .nil)))
    (.exprS (.assign (.path [n!"evaluation_result"]) (.call (.path [n!"Some"]) (.cons (.bin .add (.path [n!"lhs"]) (.path [n!"rhs"]))
      .nil)))
    .nil)))) (.cons (.variants [(n!"Rules", n!"Subtraction")]) (.block (.letS (.tuple [n!"lhs", n!"rhs"]) false (.call (.path
      [n!"evaluate_binary_node"]) (.cons (.path [n!"publisher"]) (.cons (.path [n!"source"]) (.cons (.path [n!"child"]) .nil))))
    (.exprS (.assign (.path [n!"evaluation_result"]) (.call (.path [n!"Some"]) (.cons (.bin .sub (.path [n!"lhs"]) (.path [n!"rhs"]))
      .nil)))
    (.exprS (.mac n!"println" (.cons (.str n!"Subtraction Result: {lhs} - {rhs} = {}") (.cons (.bin .sub (.path [n!"lhs"]) (.path
      [n!"rhs"])) .nil)))
    .nil)))) (.cons (.variants [(n!"Rules", n!"Multiplication")]) (.block (.letS (.tuple [n!"lhs", n!"rhs"]) false (.call (.path
      [n!"evaluate_binary_node"]) (.cons (.path [n!"publisher"]) (.cons (.path [n!"source"]) (.cons (.path [n!"child"]) .nil))))
    (.exprS (.assign (.path [n!"evaluation_result"]) (.call (.path [n!"Some"]) (.cons (.bin .mul (.path [n!"lhs"]) (.path [n!"rhs"]))
      .nil)))
    (.exprS (.mac n!"println" (.cons (.str n!"Multiplication Result: {lhs} * {rhs} = {}") (.cons (.bin .mul (.path [n!"lhs"]) (.path
      [n!"rhs"])) .nil)))
    .nil)))) (.cons (.variants [(n!"Rules", n!"Division")]) (.block (.letS (.tuple [n!"lhs", n!"rhs"]) false (.call (.path
      [n!"evaluate_binary_node"]) (.cons (.path [n!"publisher"]) (.cons (.path [n!"source"]) (.cons (.path [n!"child"]) .nil))))
    (.exprS (.assign (.path [n!"evaluation_result"]) (.call (.path [n!"Some"]) (.cons (.bin .div (.path [n!"lhs"]) (.path [n!"rhs"]))
      .nil)))
    (.exprS (.mac n!"println" (.cons (.str n!"Division Result: {lhs} / {rhs} = {}") (.cons (.bin .div (.path [n!"lhs"]) (.path [n!"rhs"]))
      .nil)))
    .nil)))) (.cons (.variants [(n!"Rules", n!"Number")]) (.block (.letS (.var n!"integer") false (.call (.path [n!"evaluate_number"])
      (.cons (.path [n!"publisher"]) (.cons (.path [n!"source"]) (.cons (.path [n!"child"]) .nil))))
    (.tail (.assign (.path [n!"evaluation_result"]) (.call (.path [n!"Some"]) (.cons (.path [n!"integer"]) .nil)))))) (.cons (.variants
      [(n!"Rules", n!"Exponent"), (n!"Rules", n!"Fraction"), (n!"Rules", n!"Integer"), (n!"Rules", n!"Sign")]) (.block (.tail (.mac
      n!"unreachable" (.cons (.str n!"These rules can only be accessed via a number which get's handled by number function call!.") .nil))))
      .nil)))))))))))))
    (.tail (.mtch (.path [n!"evaluation_result"]) (.cons (.some n!"res") (.path [n!"res"]) (.cons .none (.block (.tail (.mac n!"panic"
      (.cons (.str n!"Some fatal logical flaw has occurred in the program.") .nil)))) .nil)))))))⟩

/-- The items of examples/example_3_basic_maths/src/lib.rs. -/
def calc3LibItems : List Item :=
  [.fn Calc3.evaluate_tree, .fn Calc3.evaluate_binary_node, .fn Calc3.evaluate_number, .fn Calc3.evaluate_tree_kernel]

/-- examples/example_4_full_maths/src/lib.rs:4 -/
def Calc4.evaluate_tree : Fn :=
  ⟨none, n!"evaluate_tree", .none, [n!"publisher", n!"source"], some (.block (.letS (.var n!"publisher") false (.meth (.path
      [n!"publisher"]) n!"clear_false" .nil)
    (.letS (.var n!"grammar_node") false (.meth (.path [n!"publisher"]) n!"get_node" (.cons (.call (.path [n!"Key"]) (.cons (.int 0) .nil))
      .nil))
    (.tail (.call (.path [n!"evaluate_tree_kernel"]) (.cons (.ref (.path [n!"publisher"])) (.cons (.path [n!"source"]) (.cons (.path
      [n!"grammar_node"]) .nil))))))))⟩

/-- examples/example_4_full_maths/src/lib.rs:10 -/
def Calc4.evaluate_binary_node : Fn :=
  ⟨none, n!"evaluate_binary_node", .none, [n!"publisher", n!"source", n!"node"], some (.block (.letS (.var n!"children") false (.meth (.path
      [n!"node"]) n!"get_children" .nil)
    (.exprS (.mac n!"debug_assert" (.cons (.bin .eq (.meth (.path [n!"children"]) n!"len" .nil) (.int 2)) .nil))
    (.letS (.var n!"lhs") false (.meth (.path [n!"publisher"]) n!"get_node" (.cons (.index (.path [n!"children"]) (.int 0)) .nil))
    (.letS (.var n!"lhs_result") false (.call (.path [n!"evaluate_tree_kernel"]) (.cons (.path [n!"publisher"]) (.cons (.path [n!"source"])
      (.cons (.path [n!"lhs"]) .nil))))
    (.letS (.var n!"rhs") false (.meth (.path [n!"publisher"]) n!"get_node" (.cons (.index (.path [n!"children"]) (.int 1)) .nil))
    (.letS (.var n!"rhs_result") false (.call (.path [n!"evaluate_tree_kernel"]) (.cons (.path [n!"publisher"]) (.cons (.path [n!"source"])
      (.cons (.path [n!"rhs"]) .nil))))
    (.tail (.tuple (.cons (.path [n!"lhs_result"]) (.cons (.path [n!"rhs_result"]) .nil)))))))))))⟩

/-- examples/example_4_full_maths/src/lib.rs:21 -/
def Calc4.evaluate_number : Fn :=
  ⟨none, n!"evaluate_number", .none, [n!"publisher", n!"source", n!"node"], some (.block (.exprS (.mac n!"debug_assert" (.cons (.bin .eq
      (.field (.path [n!"node"]) n!"rule") (.path [n!"Rules", n!"Number"])) .nil))
    (.exprS (.mac n!"debug_assert" (.cons (.not (.meth (.meth (.path [n!"node"]) n!"get_children" .nil) n!"is_empty" .nil)) (.cons (.str
      n!"Must have at least one child, Integer") .nil)))
    (.letS (.var n!"children") false (.meth (.path [n!"node"]) n!"get_children" .nil)
    (.exprS (.ite (.bin .gt (.meth (.path [n!"children"]) n!"len" .nil) (.int 1)) (.block (.exprS (.mac n!"panic" (.cons (.str
      n!"We do not currently support Sign/Exponent/Fraction") .nil))
    .nil)) (.tuple .nil))
    (.letS (.var n!"integer_node") false (.meth (.path [n!"publisher"]) n!"get_node" (.cons (.index (.path [n!"children"]) (.int 0)) .nil))
    (.exprS (.mac n!"debug_assert" (.cons (.bin .eq (.field (.path [n!"integer_node"]) n!"rule") (.path [n!"Rules", n!"Integer"])) .nil))
    (.letS (.var n!"integer") false (.meth (.path [n!"integer_node"]) n!"get_string" (.cons (.path [n!"source"]) .nil))
    (.exprS (.mac n!"println" (.cons (.str n!"Integer String: {integer}") .nil))
    (.letS (.var n!"integer") false (.meth (.meth (.path [n!"integer"]) n!"parse" .nil) n!"expect" (.cons (.str n!"Should be valid integer")
      .nil))
    (.exprS (.mac n!"println" (.cons (.str n!"Integer i64: {integer}") .nil))
    (.tail (.path [n!"integer"])))))))))))))⟩

/-- examples/example_4_full_maths/src/lib.rs:41 -/
def Calc4.evaluate_tree_kernel : Fn :=
  ⟨none, n!"evaluate_tree_kernel", .none, [n!"publisher", n!"source", n!"node"], some (.block (.letS (.var n!"evaluation_result") true
      (.path [n!"None"])
    (.exprS (.forIn (.var n!"child_key") (.meth (.path [n!"node"]) n!"get_children" .nil) (.block (.letS (.var n!"child") false (.meth
      (.path [n!"publisher"]) n!"get_node" (.cons (.deref (.path [n!"child_key"])) .nil))
    (.letU n!"result"
    (.tail (.mtch (.field (.path [n!"child"]) n!"rule") (.cons (.variants [(n!"Rules", n!"Grammar"), (n!"Rules", n!"Parentheses"),
      (n!"Rules", n!"Term"), (n!"Rules", n!"Factor"), (n!"Rules", n!"Expr"), (n!"Rules", n!"Power_expr")]) (.block (.exprS (.assign (.path
      [n!"result"]) (.call (.path [n!"evaluate_tree_kernel"]) (.cons (.path [n!"publisher"]) (.cons (.path [n!"source"]) (.cons (.path
      [n!"child"]) .nil)))))
    (.exprS (.mac n!"println" (.cons (.str n!"{:?} Result: {result}") (.cons (.field (.path [n!"child"]) n!"rule") .nil)))
    (.exprS (.assign (.path [n!"evaluation_result"]) (.call (.path [n!"Some"]) (.cons (.path [n!"result"]) .nil)))
    .nil)))) (.cons (.variants [(n!"Rules", n!"Power")]) (.block (.letS (.tuple [n!"lhs", n!"rhs"]) false (.call (.path
      [n!"evaluate_binary_node"]) (.cons (.path [n!"publisher"]) (.cons (.path [n!"source"]) (.cons (.path [n!"child"]) .nil))))
    (.letS (.var n!"res") false (.meth (.path [n!"lhs"]) n!"pow" (.cons (.cast (.path [n!"rhs"]) n!"u32") .nil))
    (.exprS (.mac n!"println" (.cons (.str n!"{lhs}, {rhs}, {res:?}") .nil))
    (.exprS (.mac n!"println" (.cons (.str n!"Power Result: {lhs} ^ {rhs} = {res:?}") .nil))
    (.exprS (.assign (.path [n!"evaluation_result"]) (.call (.path [n!"Some"]) (.cons (.path [n!"res"]) .nil)))
    .nil)))))) (.cons (.variants [(n!"Rules", n!"Addition")]) (.block (.letS (.tuple [n!"lhs", n!"rhs"]) false (.call (.path
      [n!"evaluate_binary_node"]) (.cons (.path [n!"publisher"]) (.cons (.path [n!"source"]) (.cons (.path [n!"child"]) .nil))))
    (.exprS (.mac n!"println" (.cons (.str n!"Addition Result: {lhs} + {rhs} = {}") (.cons (.bin .add (.path [n!"lhs"]) (.path [n!"rhs"]))
      .nil)))
    (.exprS (.assign (.path [n!"evaluation_result"]) (.call (.path [n!"Some"]) (.cons (.bin .add (.path [n!"lhs"]) (.path [n!"rhs"]))
      .nil)))
    .nil)))) (.cons (.variants [(n!"Rules", n!"Subtraction")]) (.block (.letS (.tuple [n!"lhs", n!"rhs"]) false (.call (.path
      [n!"evaluate_binary_node"]) (.cons (.path [n!"publisher"]) (.cons (.path [n!"source"]) (.cons (.path [n!"child"]) .nil))))
    (.exprS (.assign (.path [n!"evaluation_result"]) (.call (.path [n!"Some"]) (.cons (.bin .sub (.path [n!"lhs"]) (.path [n!"rhs"]))
      .nil)))
    (.exprS (.mac n!"println" (.cons (.str n!"Subtraction Result: {lhs} - {rhs} = {}") (.cons (.bin .sub (.path [n!"lhs"]) (.path
      [n!"rhs"])) .nil)))
    .nil)))) (.cons (.variants [(n!"Rules", n!"Multiplication")]) (.block (.letS (.tuple [n!"lhs", n!"rhs"]) false (.call (.path
      [n!"evaluate_binary_node"]) (.cons (.path [n!"publisher"]) (.cons (.path [n!"source"]) (.cons (.path [n!"child"]) .nil))))
    (.exprS (.assign (.path [n!"evaluation_result"]) (.call (.path [n!"Some"]) (.cons (.bin .mul (.path [n!"lhs"]) (.path [n!"rhs"]))
      .nil)))
    (.exprS (.mac n!"println" (.cons (.str n!"Multiplication Result: {lhs} * {rhs} = {}") (.cons (.bin .mul (.path [n!"lhs"]) (.path
      [n!"rhs"])) .nil)))
    .nil)))) (.cons (.variants [(n!"Rules", n!"Division")]) (.block (.letS (.tuple [n!"lhs", n!"rhs"]) false (.call (.path
      [n!"evaluate_binary_node"]) (.cons (.path [n!"publisher"]) (.cons (.path [n!"source"]) (.cons (.path [n!"child"]) .nil))))
    (.exprS (.assign (.path [n!"evaluation_result"]) (.call (.path [n!"Some"]) (.cons (.bin .div (.path [n!"lhs"]) (.path [n!"rhs"]))
      .nil)))
    (.exprS (.mac n!"println" (.cons (.str n!"Division Result: {lhs} / {rhs} = {}") (.cons (.bin .div (.path [n!"lhs"]) (.path [n!"rhs"]))
      .nil)))
    .nil)))) (.cons (.variants [(n!"Rules", n!"Number")]) (.block (.letS (.var n!"integer") false (.call (.path [n!"evaluate_number"])
      (.cons (.path [n!"publisher"]) (.cons (.path [n!"source"]) (.cons (.path [n!"child"]) .nil))))
    (.tail (.assign (.path [n!"evaluation_result"]) (.call (.path [n!"Some"]) (.cons (.path [n!"integer"]) .nil)))))) (.cons (.variants
      [(n!"Rules", n!"Exponent"), (n!"Rules", n!"Fraction"), (n!"Rules", n!"Integer"), (n!"Rules", n!"Sign")]) (.block (.tail (.mac
      n!"unreachable" (.cons (.str n!"These rules can only be accessed via a number which get's handled by number function call!.") .nil))))
      .nil))))))))))))))
    (.tail (.mtch (.path [n!"evaluation_result"]) (.cons (.some n!"res") (.path [n!"res"]) (.cons .none (.block (.tail (.mac n!"panic"
      (.cons (.str n!"Some fatal logical flaw has occurred in the program.") .nil)))) .nil)))))))⟩

/-- The items of examples/example_4_full_maths/src/lib.rs. -/
def calc4LibItems : List Item :=
  [.fn Calc4.evaluate_tree, .fn Calc4.evaluate_binary_node, .fn Calc4.evaluate_number, .fn Calc4.evaluate_tree_kernel]

/-- The items of the core. -/
def core : List Item := keysItems ++ sourceItems ++ cacheItems ++ publisherItems ++ contextItems ++ parserCoreItems ++ varNameItems ++ parseItems

end PP.Mini.Ast
