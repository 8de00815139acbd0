import Verif.Spec.Mini.Interp
import Verif.Model.CoreAst

/-! Programs that contain the functions of the core (generated by tools/core2lean.py) -/
namespace PP.Mini

/-- Whether `UserState` is a tuple struct. -/
def Prog.userTuple (Q : Prog) : Bool := Q.contains (.tupleStruct n!"UserState")

/-- The functions of these names are those of the core. -/
structure HasCore (Q : Prog) : Prop where
  f_usize_from : Q.fn? (some n!"usize") n!"from" = some Ast.usize.from
  f_Source_new : Q.fn? (some n!"Source") n!"new" = some Ast.Source.new
  f_Source_get_char : Q.fn? (some n!"Source") n!"get_char" = some Ast.Source.get_char
  f_Source_get_string : Q.fn? (some n!"Source") n!"get_string" = some Ast.Source.get_string
  f_BasicCache_new : Q.fn? (some n!"BasicCache") n!"new" = some Ast.BasicCache.new
  f_BasicCache_get_current_active_lr_position : Q.fn? (some n!"BasicCache") n!"get_current_active_lr_position" = some Ast.BasicCache.get_current_active_lr_position
  f_BasicCache_set_current_active_lr_position : Q.fn? (some n!"BasicCache") n!"set_current_active_lr_position" = some Ast.BasicCache.set_current_active_lr_position
  f_BasicCache_insert : Q.fn? (some n!"BasicCache") n!"insert" = some Ast.BasicCache.insert
  f_BasicCache_check : Q.fn? (some n!"BasicCache") n!"check" = some Ast.BasicCache.check
  f_BasicCache_check_head : Q.fn? (some n!"BasicCache") n!"check_head" = some Ast.BasicCache.check_head
  f_BasicCache_set_head : Q.fn? (some n!"BasicCache") n!"set_head" = some Ast.BasicCache.set_head
  f_BasicCache_reinitialize_eval_set : Q.fn? (some n!"BasicCache") n!"reinitialize_eval_set" = some Ast.BasicCache.reinitialize_eval_set
  f_BasicCache_rule_in_involved_set : Q.fn? (some n!"BasicCache") n!"rule_in_involved_set" = some Ast.BasicCache.rule_in_involved_set
  f_BasicCache_rule_in_eval_set : Q.fn? (some n!"BasicCache") n!"rule_in_eval_set" = some Ast.BasicCache.rule_in_eval_set
  f_BasicCache_remove_from_eval_set : Q.fn? (some n!"BasicCache") n!"remove_from_eval_set" = some Ast.BasicCache.remove_from_eval_set
  f_BasicPublisher_new : Q.fn? (some n!"BasicPublisher") n!"new" = some Ast.BasicPublisher.new
  f_BasicPublisher_add_node : Q.fn? (some n!"BasicPublisher") n!"add_node" = some Ast.BasicPublisher.add_node
  f_BasicPublisher_connect : Q.fn? (some n!"BasicPublisher") n!"connect" = some Ast.BasicPublisher.connect
  f_BasicPublisher_connect_if_not_connected : Q.fn? (some n!"BasicPublisher") n!"connect_if_not_connected" = some Ast.BasicPublisher.connect_if_not_connected
  f_BasicPublisher_set_node_start_position : Q.fn? (some n!"BasicPublisher") n!"set_node_start_position" = some Ast.BasicPublisher.set_node_start_position
  f_BasicPublisher_set_node_end_position : Q.fn? (some n!"BasicPublisher") n!"set_node_end_position" = some Ast.BasicPublisher.set_node_end_position
  f_BasicPublisher_set_node_result : Q.fn? (some n!"BasicPublisher") n!"set_node_result" = some Ast.BasicPublisher.set_node_result
  f_BasicPublisher_clear_false : Q.fn? (some n!"BasicPublisher") n!"clear_false" = some Ast.BasicPublisher.clear_false
  f_BasicPublisher_get_node : Q.fn? (some n!"BasicPublisher") n!"get_node" = some Ast.BasicPublisher.get_node
  f_BasicPublisher_get_mut_node : Q.fn? (some n!"BasicPublisher") n!"get_mut_node" = some Ast.BasicPublisher.get_mut_node
  f_BasicPublisher_clear_false_kernel : Q.fn? (some n!"BasicPublisher") n!"clear_false_kernel" = some Ast.BasicPublisher.clear_false_kernel
  f_BasicPublisher_len : Q.fn? (some n!"BasicPublisher") n!"len" = some Ast.BasicPublisher.len
  f_Node_get_children : Q.fn? (some n!"Node") n!"get_children" = some Ast.Node.get_children
  f_Node_get_string : Q.fn? (some n!"Node") n!"get_string" = some Ast.Node.get_string
  f_BasicContext_new : Q.fn? (some n!"BasicContext") n!"new" = some Ast.BasicContext.new
  f_BasicContext_get_current_active_lr_position : Q.fn? (some n!"BasicContext") n!"get_current_active_lr_position" = some Ast.BasicContext.get_current_active_lr_position
  f_BasicContext_set_current_active_lr_position : Q.fn? (some n!"BasicContext") n!"set_current_active_lr_position" = some Ast.BasicContext.set_current_active_lr_position
  f_BasicContext_reinitialize_eval_set : Q.fn? (some n!"BasicContext") n!"reinitialize_eval_set" = some Ast.BasicContext.reinitialize_eval_set
  f_BasicContext_reserve_publisher_entry : Q.fn? (some n!"BasicContext") n!"reserve_publisher_entry" = some Ast.BasicContext.reserve_publisher_entry
  f_BasicContext_connect : Q.fn? (some n!"BasicContext") n!"connect" = some Ast.BasicContext.connect
  f_BasicContext_create_cache_entry : Q.fn? (some n!"BasicContext") n!"create_cache_entry" = some Ast.BasicContext.create_cache_entry
  f_BasicContext_update_publisher_entry : Q.fn? (some n!"BasicContext") n!"update_publisher_entry" = some Ast.BasicContext.update_publisher_entry
  f_BasicContext_check : Q.fn? (some n!"BasicContext") n!"check" = some Ast.BasicContext.check
  f_BasicContext_check_head : Q.fn? (some n!"BasicContext") n!"check_head" = some Ast.BasicContext.check_head
  f_BasicContext_rule_in_involved_set : Q.fn? (some n!"BasicContext") n!"rule_in_involved_set" = some Ast.BasicContext.rule_in_involved_set
  f_BasicContext_connect_if_not_connected : Q.fn? (some n!"BasicContext") n!"connect_if_not_connected" = some Ast.BasicContext.connect_if_not_connected
  f_BasicContext_set_head : Q.fn? (some n!"BasicContext") n!"set_head" = some Ast.BasicContext.set_head
  f_BasicContext_rule_in_eval_set : Q.fn? (some n!"BasicContext") n!"rule_in_eval_set" = some Ast.BasicContext.rule_in_eval_set
  f_BasicContext_remove_from_eval_set : Q.fn? (some n!"BasicContext") n!"remove_from_eval_set" = some Ast.BasicContext.remove_from_eval_set
  f_BasicContext_get_publisher : Q.fn? (some n!"BasicContext") n!"get_publisher" = some Ast.BasicContext.get_publisher
  f__and_predicate_kernel : Q.fn? none n!"_and_predicate_kernel" = some Ast._and_predicate_kernel
  f__and_predicate : Q.fn? none n!"_and_predicate" = some Ast._and_predicate
  f__not_predicate_kernel : Q.fn? none n!"_not_predicate_kernel" = some Ast._not_predicate_kernel
  f__not_predicate : Q.fn? none n!"_not_predicate" = some Ast._not_predicate
  f__one_or_more_kernel : Q.fn? none n!"_one_or_more_kernel" = some Ast._one_or_more_kernel
  f__one_or_more : Q.fn? none n!"_one_or_more" = some Ast._one_or_more
  f__optional_kernel : Q.fn? none n!"_optional_kernel" = some Ast._optional_kernel
  f__optional : Q.fn? none n!"_optional" = some Ast._optional
  f__ordered_choice_kernel : Q.fn? none n!"_ordered_choice_kernel" = some Ast._ordered_choice_kernel
  f__ordered_choice : Q.fn? none n!"_ordered_choice" = some Ast._ordered_choice
  f__sequence_kernel : Q.fn? none n!"_sequence_kernel" = some Ast._sequence_kernel
  f__sequence : Q.fn? none n!"_sequence" = some Ast._sequence
  f__subexpression_kernel : Q.fn? none n!"_subexpression_kernel" = some Ast._subexpression_kernel
  f__subexpression : Q.fn? none n!"_subexpression" = some Ast._subexpression
  f__terminal_kernel : Q.fn? none n!"_terminal_kernel" = some Ast._terminal_kernel
  f__terminal : Q.fn? none n!"_terminal" = some Ast._terminal
  f__zero_or_more_kernel : Q.fn? none n!"_zero_or_more_kernel" = some Ast._zero_or_more_kernel
  f__zero_or_more : Q.fn? none n!"_zero_or_more" = some Ast._zero_or_more
  f__string_terminal_kernel_ascii_opt : Q.fn? none n!"_string_terminal_kernel_ascii_opt" = some Ast._string_terminal_kernel_ascii_opt
  f__string_terminal_opt_ascii : Q.fn? none n!"_string_terminal_opt_ascii" = some Ast._string_terminal_opt_ascii
  f__ordered_choice_match_range_kernel : Q.fn? none n!"_ordered_choice_match_range_kernel" = some Ast._ordered_choice_match_range_kernel
  f__ordered_choice_match_range : Q.fn? none n!"_ordered_choice_match_range" = some Ast._ordered_choice_match_range
  f_memoized_behaviour : Q.fn? none n!"memoized_behaviour" = some Ast.memoized_behaviour
  f_default_behaviour : Q.fn? none n!"default_behaviour" = some Ast.default_behaviour
  f__var_name : Q.fn? none n!"_var_name" = some Ast._var_name
  f__var_name_kernel : Q.fn? none n!"_var_name_kernel" = some Ast._var_name_kernel
  f__var_name_indirect_left_recursion : Q.fn? none n!"_var_name_indirect_left_recursion" = some Ast._var_name_indirect_left_recursion
  f_convert_vec_to_btree_set : Q.fn? none n!"convert_vec_to_btree_set" = some Ast.convert_vec_to_btree_set
  f__var_name_kernel_growth_function : Q.fn? none n!"_var_name_kernel_growth_function" = some Ast._var_name_kernel_growth_function
  f_should_go_into_growth_function : Q.fn? none n!"should_go_into_growth_function" = some Ast.should_go_into_growth_function
  f__var_name_kernel_indirect_left_recursion : Q.fn? none n!"_var_name_kernel_indirect_left_recursion" = some Ast._var_name_kernel_indirect_left_recursion
  f_parse : Q.fn? none n!"parse" = some Ast.parse
  tuple : ∀ x, Q.isTuple x = (x == n!"Key" || (x == n!"UserState" && Q.userTuple))

/-- Names that the rest of a program must not define again. -/
def coreNames : List (Option Name × Name) :=
  [(some n!"usize", n!"from"),
   (some n!"Source", n!"new"),
   (some n!"Source", n!"get_char"),
   (some n!"Source", n!"get_string"),
   (some n!"BasicCache", n!"new"),
   (some n!"BasicCache", n!"get_current_active_lr_position"),
   (some n!"BasicCache", n!"set_current_active_lr_position"),
   (some n!"BasicCache", n!"insert"),
   (some n!"BasicCache", n!"check"),
   (some n!"BasicCache", n!"check_head"),
   (some n!"BasicCache", n!"set_head"),
   (some n!"BasicCache", n!"reinitialize_eval_set"),
   (some n!"BasicCache", n!"rule_in_involved_set"),
   (some n!"BasicCache", n!"rule_in_eval_set"),
   (some n!"BasicCache", n!"remove_from_eval_set"),
   (some n!"BasicPublisher", n!"new"),
   (some n!"BasicPublisher", n!"add_node"),
   (some n!"BasicPublisher", n!"connect"),
   (some n!"BasicPublisher", n!"connect_if_not_connected"),
   (some n!"BasicPublisher", n!"set_node_start_position"),
   (some n!"BasicPublisher", n!"set_node_end_position"),
   (some n!"BasicPublisher", n!"set_node_result"),
   (some n!"BasicPublisher", n!"clear_false"),
   (some n!"BasicPublisher", n!"get_node"),
   (some n!"BasicPublisher", n!"get_mut_node"),
   (some n!"BasicPublisher", n!"clear_false_kernel"),
   (some n!"BasicPublisher", n!"len"),
   (some n!"Node", n!"get_children"),
   (some n!"Node", n!"get_string"),
   (some n!"BasicContext", n!"new"),
   (some n!"BasicContext", n!"get_current_active_lr_position"),
   (some n!"BasicContext", n!"set_current_active_lr_position"),
   (some n!"BasicContext", n!"reinitialize_eval_set"),
   (some n!"BasicContext", n!"reserve_publisher_entry"),
   (some n!"BasicContext", n!"connect"),
   (some n!"BasicContext", n!"create_cache_entry"),
   (some n!"BasicContext", n!"update_publisher_entry"),
   (some n!"BasicContext", n!"check"),
   (some n!"BasicContext", n!"check_head"),
   (some n!"BasicContext", n!"rule_in_involved_set"),
   (some n!"BasicContext", n!"connect_if_not_connected"),
   (some n!"BasicContext", n!"set_head"),
   (some n!"BasicContext", n!"rule_in_eval_set"),
   (some n!"BasicContext", n!"remove_from_eval_set"),
   (some n!"BasicContext", n!"get_publisher"),
   (none, n!"_and_predicate_kernel"),
   (none, n!"_and_predicate"),
   (none, n!"_not_predicate_kernel"),
   (none, n!"_not_predicate"),
   (none, n!"_one_or_more_kernel"),
   (none, n!"_one_or_more"),
   (none, n!"_optional_kernel"),
   (none, n!"_optional"),
   (none, n!"_ordered_choice_kernel"),
   (none, n!"_ordered_choice"),
   (none, n!"_sequence_kernel"),
   (none, n!"_sequence"),
   (none, n!"_subexpression_kernel"),
   (none, n!"_subexpression"),
   (none, n!"_terminal_kernel"),
   (none, n!"_terminal"),
   (none, n!"_zero_or_more_kernel"),
   (none, n!"_zero_or_more"),
   (none, n!"_string_terminal_kernel_ascii_opt"),
   (none, n!"_string_terminal_opt_ascii"),
   (none, n!"_ordered_choice_match_range_kernel"),
   (none, n!"_ordered_choice_match_range"),
   (none, n!"memoized_behaviour"),
   (none, n!"default_behaviour"),
   (none, n!"_var_name"),
   (none, n!"_var_name_kernel"),
   (none, n!"_var_name_indirect_left_recursion"),
   (none, n!"convert_vec_to_btree_set"),
   (none, n!"_var_name_kernel_growth_function"),
   (none, n!"should_go_into_growth_function"),
   (none, n!"_var_name_kernel_indirect_left_recursion"),
   (none, n!"parse")]

theorem fns_append (P P' : Prog) (ty n) : (P ++ P' : Prog).fns ty n = P.fns ty n ++ P'.fns ty n := by simp [Prog.fns, List.filterMap_append]

theorem fn?_core {P P' : Prog} {ty n f} (h : P.fns ty n = [f]) (h' : P'.fns ty n = []) : (P ++ P' : Prog).fn? ty n = some f := by
  simp [Prog.fn?, fns_append, h, h']

theorem hasCore {gen : Prog} (h : ∀ x ∈ coreNames, gen.fns x.1 x.2 = []) (ht : ∀ x, x ≠ n!"UserState" → gen.isTuple x = false) :
    HasCore (Ast.core ++ gen) where
  f_usize_from := fn?_core (by decide +kernel) (h (some n!"usize", n!"from") (by decide +kernel))
  f_Source_new := fn?_core (by decide +kernel) (h (some n!"Source", n!"new") (by decide +kernel))
  f_Source_get_char := fn?_core (by decide +kernel) (h (some n!"Source", n!"get_char") (by decide +kernel))
  f_Source_get_string := fn?_core (by decide +kernel) (h (some n!"Source", n!"get_string") (by decide +kernel))
  f_BasicCache_new := fn?_core (by decide +kernel) (h (some n!"BasicCache", n!"new") (by decide +kernel))
  f_BasicCache_get_current_active_lr_position := fn?_core (by decide +kernel) (h (some n!"BasicCache", n!"get_current_active_lr_position") (by decide +kernel))
  f_BasicCache_set_current_active_lr_position := fn?_core (by decide +kernel) (h (some n!"BasicCache", n!"set_current_active_lr_position") (by decide +kernel))
  f_BasicCache_insert := fn?_core (by decide +kernel) (h (some n!"BasicCache", n!"insert") (by decide +kernel))
  f_BasicCache_check := fn?_core (by decide +kernel) (h (some n!"BasicCache", n!"check") (by decide +kernel))
  f_BasicCache_check_head := fn?_core (by decide +kernel) (h (some n!"BasicCache", n!"check_head") (by decide +kernel))
  f_BasicCache_set_head := fn?_core (by decide +kernel) (h (some n!"BasicCache", n!"set_head") (by decide +kernel))
  f_BasicCache_reinitialize_eval_set := fn?_core (by decide +kernel) (h (some n!"BasicCache", n!"reinitialize_eval_set") (by decide +kernel))
  f_BasicCache_rule_in_involved_set := fn?_core (by decide +kernel) (h (some n!"BasicCache", n!"rule_in_involved_set") (by decide +kernel))
  f_BasicCache_rule_in_eval_set := fn?_core (by decide +kernel) (h (some n!"BasicCache", n!"rule_in_eval_set") (by decide +kernel))
  f_BasicCache_remove_from_eval_set := fn?_core (by decide +kernel) (h (some n!"BasicCache", n!"remove_from_eval_set") (by decide +kernel))
  f_BasicPublisher_new := fn?_core (by decide +kernel) (h (some n!"BasicPublisher", n!"new") (by decide +kernel))
  f_BasicPublisher_add_node := fn?_core (by decide +kernel) (h (some n!"BasicPublisher", n!"add_node") (by decide +kernel))
  f_BasicPublisher_connect := fn?_core (by decide +kernel) (h (some n!"BasicPublisher", n!"connect") (by decide +kernel))
  f_BasicPublisher_connect_if_not_connected := fn?_core (by decide +kernel) (h (some n!"BasicPublisher", n!"connect_if_not_connected") (by decide +kernel))
  f_BasicPublisher_set_node_start_position := fn?_core (by decide +kernel) (h (some n!"BasicPublisher", n!"set_node_start_position") (by decide +kernel))
  f_BasicPublisher_set_node_end_position := fn?_core (by decide +kernel) (h (some n!"BasicPublisher", n!"set_node_end_position") (by decide +kernel))
  f_BasicPublisher_set_node_result := fn?_core (by decide +kernel) (h (some n!"BasicPublisher", n!"set_node_result") (by decide +kernel))
  f_BasicPublisher_clear_false := fn?_core (by decide +kernel) (h (some n!"BasicPublisher", n!"clear_false") (by decide +kernel))
  f_BasicPublisher_get_node := fn?_core (by decide +kernel) (h (some n!"BasicPublisher", n!"get_node") (by decide +kernel))
  f_BasicPublisher_get_mut_node := fn?_core (by decide +kernel) (h (some n!"BasicPublisher", n!"get_mut_node") (by decide +kernel))
  f_BasicPublisher_clear_false_kernel := fn?_core (by decide +kernel) (h (some n!"BasicPublisher", n!"clear_false_kernel") (by decide +kernel))
  f_BasicPublisher_len := fn?_core (by decide +kernel) (h (some n!"BasicPublisher", n!"len") (by decide +kernel))
  f_Node_get_children := fn?_core (by decide +kernel) (h (some n!"Node", n!"get_children") (by decide +kernel))
  f_Node_get_string := fn?_core (by decide +kernel) (h (some n!"Node", n!"get_string") (by decide +kernel))
  f_BasicContext_new := fn?_core (by decide +kernel) (h (some n!"BasicContext", n!"new") (by decide +kernel))
  f_BasicContext_get_current_active_lr_position := fn?_core (by decide +kernel) (h (some n!"BasicContext", n!"get_current_active_lr_position") (by decide +kernel))
  f_BasicContext_set_current_active_lr_position := fn?_core (by decide +kernel) (h (some n!"BasicContext", n!"set_current_active_lr_position") (by decide +kernel))
  f_BasicContext_reinitialize_eval_set := fn?_core (by decide +kernel) (h (some n!"BasicContext", n!"reinitialize_eval_set") (by decide +kernel))
  f_BasicContext_reserve_publisher_entry := fn?_core (by decide +kernel) (h (some n!"BasicContext", n!"reserve_publisher_entry") (by decide +kernel))
  f_BasicContext_connect := fn?_core (by decide +kernel) (h (some n!"BasicContext", n!"connect") (by decide +kernel))
  f_BasicContext_create_cache_entry := fn?_core (by decide +kernel) (h (some n!"BasicContext", n!"create_cache_entry") (by decide +kernel))
  f_BasicContext_update_publisher_entry := fn?_core (by decide +kernel) (h (some n!"BasicContext", n!"update_publisher_entry") (by decide +kernel))
  f_BasicContext_check := fn?_core (by decide +kernel) (h (some n!"BasicContext", n!"check") (by decide +kernel))
  f_BasicContext_check_head := fn?_core (by decide +kernel) (h (some n!"BasicContext", n!"check_head") (by decide +kernel))
  f_BasicContext_rule_in_involved_set := fn?_core (by decide +kernel) (h (some n!"BasicContext", n!"rule_in_involved_set") (by decide +kernel))
  f_BasicContext_connect_if_not_connected := fn?_core (by decide +kernel) (h (some n!"BasicContext", n!"connect_if_not_connected") (by decide +kernel))
  f_BasicContext_set_head := fn?_core (by decide +kernel) (h (some n!"BasicContext", n!"set_head") (by decide +kernel))
  f_BasicContext_rule_in_eval_set := fn?_core (by decide +kernel) (h (some n!"BasicContext", n!"rule_in_eval_set") (by decide +kernel))
  f_BasicContext_remove_from_eval_set := fn?_core (by decide +kernel) (h (some n!"BasicContext", n!"remove_from_eval_set") (by decide +kernel))
  f_BasicContext_get_publisher := fn?_core (by decide +kernel) (h (some n!"BasicContext", n!"get_publisher") (by decide +kernel))
  f__and_predicate_kernel := fn?_core (by decide +kernel) (h (none, n!"_and_predicate_kernel") (by decide +kernel))
  f__and_predicate := fn?_core (by decide +kernel) (h (none, n!"_and_predicate") (by decide +kernel))
  f__not_predicate_kernel := fn?_core (by decide +kernel) (h (none, n!"_not_predicate_kernel") (by decide +kernel))
  f__not_predicate := fn?_core (by decide +kernel) (h (none, n!"_not_predicate") (by decide +kernel))
  f__one_or_more_kernel := fn?_core (by decide +kernel) (h (none, n!"_one_or_more_kernel") (by decide +kernel))
  f__one_or_more := fn?_core (by decide +kernel) (h (none, n!"_one_or_more") (by decide +kernel))
  f__optional_kernel := fn?_core (by decide +kernel) (h (none, n!"_optional_kernel") (by decide +kernel))
  f__optional := fn?_core (by decide +kernel) (h (none, n!"_optional") (by decide +kernel))
  f__ordered_choice_kernel := fn?_core (by decide +kernel) (h (none, n!"_ordered_choice_kernel") (by decide +kernel))
  f__ordered_choice := fn?_core (by decide +kernel) (h (none, n!"_ordered_choice") (by decide +kernel))
  f__sequence_kernel := fn?_core (by decide +kernel) (h (none, n!"_sequence_kernel") (by decide +kernel))
  f__sequence := fn?_core (by decide +kernel) (h (none, n!"_sequence") (by decide +kernel))
  f__subexpression_kernel := fn?_core (by decide +kernel) (h (none, n!"_subexpression_kernel") (by decide +kernel))
  f__subexpression := fn?_core (by decide +kernel) (h (none, n!"_subexpression") (by decide +kernel))
  f__terminal_kernel := fn?_core (by decide +kernel) (h (none, n!"_terminal_kernel") (by decide +kernel))
  f__terminal := fn?_core (by decide +kernel) (h (none, n!"_terminal") (by decide +kernel))
  f__zero_or_more_kernel := fn?_core (by decide +kernel) (h (none, n!"_zero_or_more_kernel") (by decide +kernel))
  f__zero_or_more := fn?_core (by decide +kernel) (h (none, n!"_zero_or_more") (by decide +kernel))
  f__string_terminal_kernel_ascii_opt := fn?_core (by decide +kernel) (h (none, n!"_string_terminal_kernel_ascii_opt") (by decide +kernel))
  f__string_terminal_opt_ascii := fn?_core (by decide +kernel) (h (none, n!"_string_terminal_opt_ascii") (by decide +kernel))
  f__ordered_choice_match_range_kernel := fn?_core (by decide +kernel) (h (none, n!"_ordered_choice_match_range_kernel") (by decide +kernel))
  f__ordered_choice_match_range := fn?_core (by decide +kernel) (h (none, n!"_ordered_choice_match_range") (by decide +kernel))
  f_memoized_behaviour := fn?_core (by decide +kernel) (h (none, n!"memoized_behaviour") (by decide +kernel))
  f_default_behaviour := fn?_core (by decide +kernel) (h (none, n!"default_behaviour") (by decide +kernel))
  f__var_name := fn?_core (by decide +kernel) (h (none, n!"_var_name") (by decide +kernel))
  f__var_name_kernel := fn?_core (by decide +kernel) (h (none, n!"_var_name_kernel") (by decide +kernel))
  f__var_name_indirect_left_recursion := fn?_core (by decide +kernel) (h (none, n!"_var_name_indirect_left_recursion") (by decide +kernel))
  f_convert_vec_to_btree_set := fn?_core (by decide +kernel) (h (none, n!"convert_vec_to_btree_set") (by decide +kernel))
  f__var_name_kernel_growth_function := fn?_core (by decide +kernel) (h (none, n!"_var_name_kernel_growth_function") (by decide +kernel))
  f_should_go_into_growth_function := fn?_core (by decide +kernel) (h (none, n!"should_go_into_growth_function") (by decide +kernel))
  f__var_name_kernel_indirect_left_recursion := fn?_core (by decide +kernel) (h (none, n!"_var_name_kernel_indirect_left_recursion") (by decide +kernel))
  f_parse := fn?_core (by decide +kernel) (h (none, n!"parse") (by decide +kernel))
  tuple x := by
    have e : ∀ x, Prog.isTuple Ast.core x = (x == n!"Key") := by
      intro x
      rw [Bool.eq_iff_iff]
      simp [Prog.isTuple, Ast.core, Ast.keysItems, Ast.sourceItems, Ast.cacheItems, Ast.publisherItems, Ast.contextItems,
        Ast.parserCoreItems, Ast.varNameItems, Ast.parseItems]
    have ha : ∀ x, Prog.isTuple (Ast.core ++ gen) x = (Prog.isTuple Ast.core x || Prog.isTuple gen x) := by
      intro x
      simp only [Prog.isTuple, List.contains_eq_any_beq, List.any_append]
    by_cases hx : x = n!"UserState"
    · subst hx
      show Prog.isTuple (Ast.core ++ gen) n!"UserState" = (n!"UserState" == n!"Key" || (n!"UserState" == n!"UserState" && Prog.isTuple (Ast.core ++ gen) n!"UserState"))
      rw [beq_self_eq_true, Bool.true_and]; rfl
    · rw [ha, ht x hx, Bool.or_false, e, beq_eq_false_iff_ne.mpr hx, Bool.false_and, Bool.or_false]

end PP.Mini
