import Verif.Spec.Rs.Interp
import Verif.Model.GenAst
import Verif.Lemmas.Rs.Attr

/-! Generated by tools/gen2lean.py: which function of the generator a name stands for -/
namespace PP.Rs

/-- The generator as a program. -/
def World.gen (ord : List Val → List Val) : World := ⟨Ast.generator, ord⟩

theorem World.gen_ord (ord) : (World.gen ord).ord = ord := rfl

variable (ord : List Val → List Val)

theorem fn?_gen {ty name f} (h : fns Ast.generator ty name = [f]) : (World.gen ord).fn? ty name = some f := by simp [World.fn?, World.gen, h]

@[rsfn] theorem fn_usize_from : (World.gen ord).fn? (some n!"usize") n!"from" = some Ast.usize.from := fn?_gen ord (by decide +kernel)
@[rsfn] theorem muts_usize_from : Ast.usize.from.muts = [false] := rfl
@[rsfn] theorem fn_BasicPublisher_eq : (World.gen ord).fn? (some n!"BasicPublisher") n!"eq" = some Ast.BasicPublisher.eq := fn?_gen ord (by decide +kernel)
@[rsfn] theorem muts_BasicPublisher_eq : Ast.BasicPublisher.eq.muts = [false, false] := rfl
@[rsfn] theorem fn_BasicPublisher_partial_eq_kernel : (World.gen ord).fn? (some n!"BasicPublisher") n!"partial_eq_kernel" = some Ast.BasicPublisher.partial_eq_kernel := fn?_gen ord (by decide +kernel)
@[rsfn] theorem muts_BasicPublisher_partial_eq_kernel : Ast.BasicPublisher.partial_eq_kernel.muts = [false, false, false, false] := rfl
@[rsfn] theorem fn_BasicPublisher_clear_node_of_children : (World.gen ord).fn? (some n!"BasicPublisher") n!"clear_node_of_children" = some Ast.BasicPublisher.clear_node_of_children := fn?_gen ord (by decide +kernel)
@[rsfn] theorem muts_BasicPublisher_clear_node_of_children : Ast.BasicPublisher.clear_node_of_children.muts = [true, false] := rfl
@[rsfn] theorem fn_BasicPublisher_new : (World.gen ord).fn? (some n!"BasicPublisher") n!"new" = some Ast.BasicPublisher.new := fn?_gen ord (by decide +kernel)
@[rsfn] theorem muts_BasicPublisher_new : Ast.BasicPublisher.new.muts = [false, false] := rfl
@[rsfn] theorem fn_BasicPublisher_clear_tree : (World.gen ord).fn? (some n!"BasicPublisher") n!"clear_tree" = some Ast.BasicPublisher.clear_tree := fn?_gen ord (by decide +kernel)
@[rsfn] theorem muts_BasicPublisher_clear_tree : Ast.BasicPublisher.clear_tree.muts = [true] := rfl
@[rsfn] theorem fn_BasicPublisher_add_node : (World.gen ord).fn? (some n!"BasicPublisher") n!"add_node" = some Ast.BasicPublisher.add_node := fn?_gen ord (by decide +kernel)
@[rsfn] theorem muts_BasicPublisher_add_node : Ast.BasicPublisher.add_node.muts = [true, false, false, false, false] := rfl
@[rsfn] theorem fn_BasicPublisher_connect : (World.gen ord).fn? (some n!"BasicPublisher") n!"connect" = some Ast.BasicPublisher.connect := fn?_gen ord (by decide +kernel)
@[rsfn] theorem muts_BasicPublisher_connect : Ast.BasicPublisher.connect.muts = [true, false, false] := rfl
@[rsfn] theorem fn_BasicPublisher_connect_front : (World.gen ord).fn? (some n!"BasicPublisher") n!"connect_front" = some Ast.BasicPublisher.connect_front := fn?_gen ord (by decide +kernel)
@[rsfn] theorem muts_BasicPublisher_connect_front : Ast.BasicPublisher.connect_front.muts = [true, false, false] := rfl
@[rsfn] theorem fn_BasicPublisher_connect_if_not_connected : (World.gen ord).fn? (some n!"BasicPublisher") n!"connect_if_not_connected" = some Ast.BasicPublisher.connect_if_not_connected := fn?_gen ord (by decide +kernel)
@[rsfn] theorem muts_BasicPublisher_connect_if_not_connected : Ast.BasicPublisher.connect_if_not_connected.muts = [true, false, false] := rfl
@[rsfn] theorem fn_BasicPublisher_disconnect : (World.gen ord).fn? (some n!"BasicPublisher") n!"disconnect" = some Ast.BasicPublisher.disconnect := fn?_gen ord (by decide +kernel)
@[rsfn] theorem muts_BasicPublisher_disconnect : Ast.BasicPublisher.disconnect.muts = [true, false, false] := rfl
@[rsfn] theorem fn_BasicPublisher_set_node_start_position : (World.gen ord).fn? (some n!"BasicPublisher") n!"set_node_start_position" = some Ast.BasicPublisher.set_node_start_position := fn?_gen ord (by decide +kernel)
@[rsfn] theorem muts_BasicPublisher_set_node_start_position : Ast.BasicPublisher.set_node_start_position.muts = [true, false, false] := rfl
@[rsfn] theorem fn_BasicPublisher_set_node_end_position : (World.gen ord).fn? (some n!"BasicPublisher") n!"set_node_end_position" = some Ast.BasicPublisher.set_node_end_position := fn?_gen ord (by decide +kernel)
@[rsfn] theorem muts_BasicPublisher_set_node_end_position : Ast.BasicPublisher.set_node_end_position.muts = [true, false, false] := rfl
@[rsfn] theorem fn_BasicPublisher_set_node_result : (World.gen ord).fn? (some n!"BasicPublisher") n!"set_node_result" = some Ast.BasicPublisher.set_node_result := fn?_gen ord (by decide +kernel)
@[rsfn] theorem muts_BasicPublisher_set_node_result : Ast.BasicPublisher.set_node_result.muts = [true, false, false] := rfl
@[rsfn] theorem fn_BasicPublisher_print : (World.gen ord).fn? (some n!"BasicPublisher") n!"print" = some Ast.BasicPublisher.print := fn?_gen ord (by decide +kernel)
@[rsfn] theorem muts_BasicPublisher_print : Ast.BasicPublisher.print.muts = [false, false, false] := rfl
@[rsfn] theorem fn_BasicPublisher_clear_false : (World.gen ord).fn? (some n!"BasicPublisher") n!"clear_false" = some Ast.BasicPublisher.clear_false := fn?_gen ord (by decide +kernel)
@[rsfn] theorem muts_BasicPublisher_clear_false : Ast.BasicPublisher.clear_false.muts = [false] := rfl
@[rsfn] theorem fn_BasicPublisher_get_node : (World.gen ord).fn? (some n!"BasicPublisher") n!"get_node" = some Ast.BasicPublisher.get_node := fn?_gen ord (by decide +kernel)
@[rsfn] theorem muts_BasicPublisher_get_node : Ast.BasicPublisher.get_node.muts = [false, false] := rfl
@[rsfn] theorem fn_BasicPublisher_get_mut_node : (World.gen ord).fn? (some n!"BasicPublisher") n!"get_mut_node" = some Ast.BasicPublisher.get_mut_node := fn?_gen ord (by decide +kernel)
@[rsfn] theorem muts_BasicPublisher_get_mut_node : Ast.BasicPublisher.get_mut_node.muts = [true, false] := rfl
@[rsfn] theorem fn_BasicPublisher_clear_false_kernel : (World.gen ord).fn? (some n!"BasicPublisher") n!"clear_false_kernel" = some Ast.BasicPublisher.clear_false_kernel := fn?_gen ord (by decide +kernel)
@[rsfn] theorem muts_BasicPublisher_clear_false_kernel : Ast.BasicPublisher.clear_false_kernel.muts = [false, true, false, false] := rfl
@[rsfn] theorem fn_BasicPublisher_capacity : (World.gen ord).fn? (some n!"BasicPublisher") n!"capacity" = some Ast.BasicPublisher.capacity := fn?_gen ord (by decide +kernel)
@[rsfn] theorem muts_BasicPublisher_capacity : Ast.BasicPublisher.capacity.muts = [false] := rfl
@[rsfn] theorem fn_BasicPublisher_len : (World.gen ord).fn? (some n!"BasicPublisher") n!"len" = some Ast.BasicPublisher.len := fn?_gen ord (by decide +kernel)
@[rsfn] theorem muts_BasicPublisher_len : Ast.BasicPublisher.len.muts = [false] := rfl
@[rsfn] theorem fn_BasicPublisher_print_kernel_true : (World.gen ord).fn? (some n!"BasicPublisher") n!"print_kernel_true" = some Ast.BasicPublisher.print_kernel_true := fn?_gen ord (by decide +kernel)
@[rsfn] theorem muts_BasicPublisher_print_kernel_true : Ast.BasicPublisher.print_kernel_true.muts = [false, false, false] := rfl
@[rsfn] theorem fn_BasicPublisher_print_kernel_false : (World.gen ord).fn? (some n!"BasicPublisher") n!"print_kernel_false" = some Ast.BasicPublisher.print_kernel_false := fn?_gen ord (by decide +kernel)
@[rsfn] theorem muts_BasicPublisher_print_kernel_false : Ast.BasicPublisher.print_kernel_false.muts = [false, false, false] := rfl
@[rsfn] theorem fn_BasicPublisher_print_kernel_all : (World.gen ord).fn? (some n!"BasicPublisher") n!"print_kernel_all" = some Ast.BasicPublisher.print_kernel_all := fn?_gen ord (by decide +kernel)
@[rsfn] theorem muts_BasicPublisher_print_kernel_all : Ast.BasicPublisher.print_kernel_all.muts = [false, false, false] := rfl
@[rsfn] theorem fn_Node_eq : (World.gen ord).fn? (some n!"Node") n!"eq" = some Ast.Node.eq := fn?_gen ord (by decide +kernel)
@[rsfn] theorem muts_Node_eq : Ast.Node.eq.muts = [false, false] := rfl
@[rsfn] theorem fn_Node_new : (World.gen ord).fn? (some n!"Node") n!"new" = some Ast.Node.new := fn?_gen ord (by decide +kernel)
@[rsfn] theorem muts_Node_new : Ast.Node.new.muts = [false, false, false, false] := rfl
@[rsfn] theorem fn_Node_get_string : (World.gen ord).fn? (some n!"Node") n!"get_string" = some Ast.Node.get_string := fn?_gen ord (by decide +kernel)
@[rsfn] theorem muts_Node_get_string : Ast.Node.get_string.muts = [false, false] := rfl
@[rsfn] theorem fn_Node_get_children : (World.gen ord).fn? (some n!"Node") n!"get_children" = some Ast.Node.get_children := fn?_gen ord (by decide +kernel)
@[rsfn] theorem muts_Node_get_children : Ast.Node.get_children.muts = [false] := rfl
@[rsfn] theorem fn_Node_set_children : (World.gen ord).fn? (some n!"Node") n!"set_children" = some Ast.Node.set_children := fn?_gen ord (by decide +kernel)
@[rsfn] theorem muts_Node_set_children : Ast.Node.set_children.muts = [true, false] := rfl
@[rsfn] theorem fn_Node_print : (World.gen ord).fn? (some n!"Node") n!"print" = some Ast.Node.print := fn?_gen ord (by decide +kernel)
@[rsfn] theorem muts_Node_print : Ast.Node.print.muts = [false, false] := rfl
@[rsfn] theorem fn_BinaryTreeWO_new : (World.gen ord).fn? (some n!"BinaryTreeWO") n!"new" = some Ast.BinaryTreeWO.new := fn?_gen ord (by decide +kernel)
@[rsfn] theorem muts_BinaryTreeWO_new : Ast.BinaryTreeWO.new.muts = [] := rfl
@[rsfn] theorem fn_BinaryTreeWO_push : (World.gen ord).fn? (some n!"BinaryTreeWO") n!"push" = some Ast.BinaryTreeWO.push := fn?_gen ord (by decide +kernel)
@[rsfn] theorem muts_BinaryTreeWO_push : Ast.BinaryTreeWO.push.muts = [true, false, false, false] := rfl
@[rsfn] theorem fn_BinaryTreeWO_print : (World.gen ord).fn? (some n!"BinaryTreeWO") n!"print" = some Ast.BinaryTreeWO.print := fn?_gen ord (by decide +kernel)
@[rsfn] theorem muts_BinaryTreeWO_print : Ast.BinaryTreeWO.print.muts = [false, false] := rfl
@[rsfn] theorem fn_BinaryTreeWO_print_kernel : (World.gen ord).fn? (some n!"BinaryTreeWO") n!"print_kernel" = some Ast.BinaryTreeWO.print_kernel := fn?_gen ord (by decide +kernel)
@[rsfn] theorem muts_BinaryTreeWO_print_kernel : Ast.BinaryTreeWO.print_kernel.muts = [false, false, false] := rfl
@[rsfn] theorem fn_BinaryTreeWO_to_string : (World.gen ord).fn? (some n!"BinaryTreeWO") n!"to_string" = some Ast.BinaryTreeWO.to_string := fn?_gen ord (by decide +kernel)
@[rsfn] theorem muts_BinaryTreeWO_to_string : Ast.BinaryTreeWO.to_string.muts = [false, false] := rfl
@[rsfn] theorem fn_BinaryTreeWO_match_ref : (World.gen ord).fn? (some n!"BinaryTreeWO") n!"match_ref" = some Ast.BinaryTreeWO.match_ref := fn?_gen ord (by decide +kernel)
@[rsfn] theorem muts_BinaryTreeWO_match_ref : Ast.BinaryTreeWO.match_ref.muts = [false, true, false] := rfl
@[rsfn] theorem fn_BinaryTreeWO_to_string_kernel : (World.gen ord).fn? (some n!"BinaryTreeWO") n!"to_string_kernel" = some Ast.BinaryTreeWO.to_string_kernel := fn?_gen ord (by decide +kernel)
@[rsfn] theorem muts_BinaryTreeWO_to_string_kernel : Ast.BinaryTreeWO.to_string_kernel.muts = [false, true, false] := rfl
@[rsfn] theorem fn_BinaryTreeWO_string_terminal : (World.gen ord).fn? (some n!"BinaryTreeWO") n!"string_terminal" = some Ast.BinaryTreeWO.string_terminal := fn?_gen ord (by decide +kernel)
@[rsfn] theorem muts_BinaryTreeWO_string_terminal : Ast.BinaryTreeWO.string_terminal.muts = [false, true, false] := rfl
@[rsfn] theorem fn_BinaryTreeWO_string_terminal_ascii_opt : (World.gen ord).fn? (some n!"BinaryTreeWO") n!"string_terminal_ascii_opt" = some Ast.BinaryTreeWO.string_terminal_ascii_opt := fn?_gen ord (by decide +kernel)
@[rsfn] theorem muts_BinaryTreeWO_string_terminal_ascii_opt : Ast.BinaryTreeWO.string_terminal_ascii_opt.muts = [false, true, false] := rfl
@[rsfn] theorem fn_BinaryTreeWO_ordered_choice_match_range : (World.gen ord).fn? (some n!"BinaryTreeWO") n!"ordered_choice_match_range" = some Ast.BinaryTreeWO.ordered_choice_match_range := fn?_gen ord (by decide +kernel)
@[rsfn] theorem muts_BinaryTreeWO_ordered_choice_match_range : Ast.BinaryTreeWO.ordered_choice_match_range.muts = [false, true, false] := rfl
@[rsfn] theorem fn_BinaryTreeWO_and_predicate : (World.gen ord).fn? (some n!"BinaryTreeWO") n!"and_predicate" = some Ast.BinaryTreeWO.and_predicate := fn?_gen ord (by decide +kernel)
@[rsfn] theorem muts_BinaryTreeWO_and_predicate : Ast.BinaryTreeWO.and_predicate.muts = [false, true, false] := rfl
@[rsfn] theorem fn_BinaryTreeWO_not_predicate : (World.gen ord).fn? (some n!"BinaryTreeWO") n!"not_predicate" = some Ast.BinaryTreeWO.not_predicate := fn?_gen ord (by decide +kernel)
@[rsfn] theorem muts_BinaryTreeWO_not_predicate : Ast.BinaryTreeWO.not_predicate.muts = [false, true, false] := rfl
@[rsfn] theorem fn_BinaryTreeWO_one_or_more : (World.gen ord).fn? (some n!"BinaryTreeWO") n!"one_or_more" = some Ast.BinaryTreeWO.one_or_more := fn?_gen ord (by decide +kernel)
@[rsfn] theorem muts_BinaryTreeWO_one_or_more : Ast.BinaryTreeWO.one_or_more.muts = [false, true, false] := rfl
@[rsfn] theorem fn_BinaryTreeWO_zero_or_more : (World.gen ord).fn? (some n!"BinaryTreeWO") n!"zero_or_more" = some Ast.BinaryTreeWO.zero_or_more := fn?_gen ord (by decide +kernel)
@[rsfn] theorem muts_BinaryTreeWO_zero_or_more : Ast.BinaryTreeWO.zero_or_more.muts = [false, true, false] := rfl
@[rsfn] theorem fn_BinaryTreeWO_hooked_call : (World.gen ord).fn? (some n!"BinaryTreeWO") n!"hooked_call" = some Ast.BinaryTreeWO.hooked_call := fn?_gen ord (by decide +kernel)
@[rsfn] theorem muts_BinaryTreeWO_hooked_call : Ast.BinaryTreeWO.hooked_call.muts = [false, true, false] := rfl
@[rsfn] theorem fn_BinaryTreeWO_subexpression : (World.gen ord).fn? (some n!"BinaryTreeWO") n!"subexpression" = some Ast.BinaryTreeWO.subexpression := fn?_gen ord (by decide +kernel)
@[rsfn] theorem muts_BinaryTreeWO_subexpression : Ast.BinaryTreeWO.subexpression.muts = [false, true, false] := rfl
@[rsfn] theorem fn_BinaryTreeWO_optional : (World.gen ord).fn? (some n!"BinaryTreeWO") n!"optional" = some Ast.BinaryTreeWO.optional := fn?_gen ord (by decide +kernel)
@[rsfn] theorem muts_BinaryTreeWO_optional : Ast.BinaryTreeWO.optional.muts = [false, true, false] := rfl
@[rsfn] theorem fn_BinaryTreeWO_ordered_choice : (World.gen ord).fn? (some n!"BinaryTreeWO") n!"ordered_choice" = some Ast.BinaryTreeWO.ordered_choice := fn?_gen ord (by decide +kernel)
@[rsfn] theorem muts_BinaryTreeWO_ordered_choice : Ast.BinaryTreeWO.ordered_choice.muts = [false, true, false] := rfl
@[rsfn] theorem fn_BinaryTreeWO_sequence : (World.gen ord).fn? (some n!"BinaryTreeWO") n!"sequence" = some Ast.BinaryTreeWO.sequence := fn?_gen ord (by decide +kernel)
@[rsfn] theorem muts_BinaryTreeWO_sequence : Ast.BinaryTreeWO.sequence.muts = [false, true, false] := rfl
@[rsfn] theorem fn_BinaryTreeWO_terminal : (World.gen ord).fn? (some n!"BinaryTreeWO") n!"terminal" = some Ast.BinaryTreeWO.terminal := fn?_gen ord (by decide +kernel)
@[rsfn] theorem muts_BinaryTreeWO_terminal : Ast.BinaryTreeWO.terminal.muts = [false, true, false] := rfl
@[rsfn] theorem fn_BinaryTreeWO_var_name : (World.gen ord).fn? (some n!"BinaryTreeWO") n!"var_name" = some Ast.BinaryTreeWO.var_name := fn?_gen ord (by decide +kernel)
@[rsfn] theorem muts_BinaryTreeWO_var_name : Ast.BinaryTreeWO.var_name.muts = [false, true, false] := rfl
@[rsfn] theorem fn_BinaryTreeWO_left_recursive_rule : (World.gen ord).fn? (some n!"BinaryTreeWO") n!"left_recursive_rule" = some Ast.BinaryTreeWO.left_recursive_rule := fn?_gen ord (by decide +kernel)
@[rsfn] theorem muts_BinaryTreeWO_left_recursive_rule : Ast.BinaryTreeWO.left_recursive_rule.muts = [false, true, false] := rfl
@[rsfn] theorem fn_BinaryTreeWO_inlined_rule : (World.gen ord).fn? (some n!"BinaryTreeWO") n!"inlined_rule" = some Ast.BinaryTreeWO.inlined_rule := fn?_gen ord (by decide +kernel)
@[rsfn] theorem muts_BinaryTreeWO_inlined_rule : Ast.BinaryTreeWO.inlined_rule.muts = [false, true, false] := rfl
@[rsfn] theorem fn_SymbolTable_new : (World.gen ord).fn? (some n!"SymbolTable") n!"new" = some Ast.SymbolTable.new := fn?_gen ord (by decide +kernel)
@[rsfn] theorem muts_SymbolTable_new : Ast.SymbolTable.new.muts = [false, false] := rfl
@[rsfn] theorem fn_SymbolTable_get_names : (World.gen ord).fn? (some n!"SymbolTable") n!"get_names" = some Ast.SymbolTable.get_names := fn?_gen ord (by decide +kernel)
@[rsfn] theorem muts_SymbolTable_get_names : Ast.SymbolTable.get_names.muts = [false] := rfl
@[rsfn] theorem fn_SymbolTable_print : (World.gen ord).fn? (some n!"SymbolTable") n!"print" = some Ast.SymbolTable.print := fn?_gen ord (by decide +kernel)
@[rsfn] theorem muts_SymbolTable_print : Ast.SymbolTable.print.muts = [false] := rfl
@[rsfn] theorem fn_SymbolTable_push : (World.gen ord).fn? (some n!"SymbolTable") n!"push" = some Ast.SymbolTable.push := fn?_gen ord (by decide +kernel)
@[rsfn] theorem muts_SymbolTable_push : Ast.SymbolTable.push.muts = [true, false] := rfl
@[rsfn] theorem fn_SymbolTable_check_symbol : (World.gen ord).fn? (some n!"SymbolTable") n!"check_symbol" = some Ast.SymbolTable.check_symbol := fn?_gen ord (by decide +kernel)
@[rsfn] theorem muts_SymbolTable_check_symbol : Ast.SymbolTable.check_symbol.muts = [false, false] := rfl
@[rsfn] theorem fn_SymbolTable_check_symbol_is_inline : (World.gen ord).fn? (some n!"SymbolTable") n!"check_symbol_is_inline" = some Ast.SymbolTable.check_symbol_is_inline := fn?_gen ord (by decide +kernel)
@[rsfn] theorem muts_SymbolTable_check_symbol_is_inline : Ast.SymbolTable.check_symbol_is_inline.muts = [false, false] := rfl
@[rsfn] theorem fn_SymbolTable_run_duplication_check : (World.gen ord).fn? (some n!"SymbolTable") n!"run_duplication_check" = some Ast.SymbolTable.run_duplication_check := fn?_gen ord (by decide +kernel)
@[rsfn] theorem muts_SymbolTable_run_duplication_check : Ast.SymbolTable.run_duplication_check.muts = [true] := rfl
@[rsfn] theorem fn_SymbolTable_create_symbol_table_from_tree : (World.gen ord).fn? (some n!"SymbolTable") n!"create_symbol_table_from_tree" = some Ast.SymbolTable.create_symbol_table_from_tree := fn?_gen ord (by decide +kernel)
@[rsfn] theorem muts_SymbolTable_create_symbol_table_from_tree : Ast.SymbolTable.create_symbol_table_from_tree.muts = [true, false] := rfl
@[rsfn] theorem fn_SymbolTable_print_inlined_rules : (World.gen ord).fn? (some n!"SymbolTable") n!"print_inlined_rules" = some Ast.SymbolTable.print_inlined_rules := fn?_gen ord (by decide +kernel)
@[rsfn] theorem muts_SymbolTable_print_inlined_rules : Ast.SymbolTable.print_inlined_rules.muts = [false] := rfl
@[rsfn] theorem fn_SymbolTable_check_semantic_instructions : (World.gen ord).fn? (some n!"SymbolTable") n!"check_semantic_instructions" = some Ast.SymbolTable.check_semantic_instructions := fn?_gen ord (by decide +kernel)
@[rsfn] theorem muts_SymbolTable_check_semantic_instructions : Ast.SymbolTable.check_semantic_instructions.muts = [true, false, false, false, false] := rfl
@[rsfn] theorem fn_SymbolTable_create_symbol_table_from_tree_kernel : (World.gen ord).fn? (some n!"SymbolTable") n!"create_symbol_table_from_tree_kernel" = some Ast.SymbolTable.create_symbol_table_from_tree_kernel := fn?_gen ord (by decide +kernel)
@[rsfn] theorem muts_SymbolTable_create_symbol_table_from_tree_kernel : Ast.SymbolTable.create_symbol_table_from_tree_kernel.muts = [true, false, false, false] := rfl
@[rsfn] theorem fn_LeftRecursionDetector_new : (World.gen ord).fn? (some n!"LeftRecursionDetector") n!"new" = some Ast.LeftRecursionDetector.new := fn?_gen ord (by decide +kernel)
@[rsfn] theorem muts_LeftRecursionDetector_new : Ast.LeftRecursionDetector.new.muts = [false, false] := rfl
@[rsfn] theorem fn_LeftRecursionDetector_get_left_recursion_rules : (World.gen ord).fn? (some n!"LeftRecursionDetector") n!"get_left_recursion_rules" = some Ast.LeftRecursionDetector.get_left_recursion_rules := fn?_gen ord (by decide +kernel)
@[rsfn] theorem muts_LeftRecursionDetector_get_left_recursion_rules : Ast.LeftRecursionDetector.get_left_recursion_rules.muts = [false] := rfl
@[rsfn] theorem fn_RuleCallTree_new : (World.gen ord).fn? (some n!"RuleCallTree") n!"new" = some Ast.RuleCallTree.new := fn?_gen ord (by decide +kernel)
@[rsfn] theorem muts_RuleCallTree_new : Ast.RuleCallTree.new.muts = [false, false] := rfl
@[rsfn] theorem fn_RuleCallTree_involved_rule_count : (World.gen ord).fn? (some n!"RuleCallTree") n!"involved_rule_count" = some Ast.RuleCallTree.involved_rule_count := fn?_gen ord (by decide +kernel)
@[rsfn] theorem muts_RuleCallTree_involved_rule_count : Ast.RuleCallTree.involved_rule_count.muts = [true] := rfl
@[rsfn] theorem fn_RuleCallTree_merge_dependent_sets_loop_until_no_change : (World.gen ord).fn? (some n!"RuleCallTree") n!"merge_dependent_sets_loop_until_no_change" = some Ast.RuleCallTree.merge_dependent_sets_loop_until_no_change := fn?_gen ord (by decide +kernel)
@[rsfn] theorem muts_RuleCallTree_merge_dependent_sets_loop_until_no_change : Ast.RuleCallTree.merge_dependent_sets_loop_until_no_change.muts = [true] := rfl
@[rsfn] theorem fn_RuleCallTree_merge_dependent_sets : (World.gen ord).fn? (some n!"RuleCallTree") n!"merge_dependent_sets" = some Ast.RuleCallTree.merge_dependent_sets := fn?_gen ord (by decide +kernel)
@[rsfn] theorem muts_RuleCallTree_merge_dependent_sets : Ast.RuleCallTree.merge_dependent_sets.muts = [true] := rfl
@[rsfn] theorem fn_RuleCallTree_create_involved_sets : (World.gen ord).fn? (some n!"RuleCallTree") n!"create_involved_sets" = some Ast.RuleCallTree.create_involved_sets := fn?_gen ord (by decide +kernel)
@[rsfn] theorem muts_RuleCallTree_create_involved_sets : Ast.RuleCallTree.create_involved_sets.muts = [true] := rfl
@[rsfn] theorem fn_RuleCallTree_repeated_loop_over_cleanup_left_most_called_rules : (World.gen ord).fn? (some n!"RuleCallTree") n!"repeated_loop_over_cleanup_left_most_called_rules" = some Ast.RuleCallTree.repeated_loop_over_cleanup_left_most_called_rules := fn?_gen ord (by decide +kernel)
@[rsfn] theorem muts_RuleCallTree_repeated_loop_over_cleanup_left_most_called_rules : Ast.RuleCallTree.repeated_loop_over_cleanup_left_most_called_rules.muts = [true] := rfl
@[rsfn] theorem fn_RuleCallTree_cleanup_left_most_called_rules : (World.gen ord).fn? (some n!"RuleCallTree") n!"cleanup_left_most_called_rules" = some Ast.RuleCallTree.cleanup_left_most_called_rules := fn?_gen ord (by decide +kernel)
@[rsfn] theorem muts_RuleCallTree_cleanup_left_most_called_rules : Ast.RuleCallTree.cleanup_left_most_called_rules.muts = [true] := rfl
@[rsfn] theorem fn_RuleCallTree_get_left_most_called_rules_of_all_rules : (World.gen ord).fn? (some n!"RuleCallTree") n!"get_left_most_called_rules_of_all_rules" = some Ast.RuleCallTree.get_left_most_called_rules_of_all_rules := fn?_gen ord (by decide +kernel)
@[rsfn] theorem muts_RuleCallTree_get_left_most_called_rules_of_all_rules : Ast.RuleCallTree.get_left_most_called_rules_of_all_rules.muts = [true, false, false] := rfl
@[rsfn] theorem fn_RuleCallTree_get_left_most_called_rules_of_rule : (World.gen ord).fn? (some n!"RuleCallTree") n!"get_left_most_called_rules_of_rule" = some Ast.RuleCallTree.get_left_most_called_rules_of_rule := fn?_gen ord (by decide +kernel)
@[rsfn] theorem muts_RuleCallTree_get_left_most_called_rules_of_rule : Ast.RuleCallTree.get_left_most_called_rules_of_rule.muts = [false, false, false, false, true] := rfl
@[rsfn] theorem fn_RuleCallTree_repeated_loop_over_referenced_rules : (World.gen ord).fn? (some n!"RuleCallTree") n!"repeated_loop_over_referenced_rules" = some Ast.RuleCallTree.repeated_loop_over_referenced_rules := fn?_gen ord (by decide +kernel)
@[rsfn] theorem muts_RuleCallTree_repeated_loop_over_referenced_rules : Ast.RuleCallTree.repeated_loop_over_referenced_rules.muts = [true] := rfl
@[rsfn] theorem fn_RuleCallTree_loop_over_referenced_rules : (World.gen ord).fn? (some n!"RuleCallTree") n!"loop_over_referenced_rules" = some Ast.RuleCallTree.loop_over_referenced_rules := fn?_gen ord (by decide +kernel)
@[rsfn] theorem muts_RuleCallTree_loop_over_referenced_rules : Ast.RuleCallTree.loop_over_referenced_rules.muts = [true] := rfl
@[rsfn] theorem fn_RuleCallTree_get_rule_rhs_index : (World.gen ord).fn? (some n!"RuleCallTree") n!"get_rule_rhs_index" = some Ast.RuleCallTree.get_rule_rhs_index := fn?_gen ord (by decide +kernel)
@[rsfn] theorem muts_RuleCallTree_get_rule_rhs_index : Ast.RuleCallTree.get_rule_rhs_index.muts = [false] := rfl
@[rsfn] theorem fn_RuleCallTree_get_rules_name : (World.gen ord).fn? (some n!"RuleCallTree") n!"get_rules_name" = some Ast.RuleCallTree.get_rules_name := fn?_gen ord (by decide +kernel)
@[rsfn] theorem muts_RuleCallTree_get_rules_name : Ast.RuleCallTree.get_rules_name.muts = [false, false, false] := rfl
@[rsfn] theorem fn_RuleCallTree_get_rule_ref_name : (World.gen ord).fn? (some n!"RuleCallTree") n!"get_rule_ref_name" = some Ast.RuleCallTree.get_rule_ref_name := fn?_gen ord (by decide +kernel)
@[rsfn] theorem muts_RuleCallTree_get_rule_ref_name : Ast.RuleCallTree.get_rule_ref_name.muts = [false, false] := rfl
@[rsfn] theorem fn_RuleCallTree_get_rules_referenced_by_rule : (World.gen ord).fn? (some n!"RuleCallTree") n!"get_rules_referenced_by_rule" = some Ast.RuleCallTree.get_rules_referenced_by_rule := fn?_gen ord (by decide +kernel)
@[rsfn] theorem muts_RuleCallTree_get_rules_referenced_by_rule : Ast.RuleCallTree.get_rules_referenced_by_rule.muts = [false, false, false, true] := rfl
@[rsfn] theorem fn_RuleCallTree_walk_node_children : (World.gen ord).fn? (some n!"RuleCallTree") n!"walk_node_children" = some Ast.RuleCallTree.walk_node_children := fn?_gen ord (by decide +kernel)
@[rsfn] theorem muts_RuleCallTree_walk_node_children : Ast.RuleCallTree.walk_node_children.muts = [true, false, false, false] := rfl
@[rsfn] theorem fn_GeneratedCode_new : (World.gen ord).fn? (some n!"GeneratedCode") n!"new" = some Ast.GeneratedCode.new := fn?_gen ord (by decide +kernel)
@[rsfn] theorem muts_GeneratedCode_new : Ast.GeneratedCode.new.muts = [false, false, false, false] := rfl
@[rsfn] theorem fn_GeneratedCode_sample_main_header : (World.gen ord).fn? (some n!"GeneratedCode") n!"sample_main_header" = some Ast.GeneratedCode.sample_main_header := fn?_gen ord (by decide +kernel)
@[rsfn] theorem muts_GeneratedCode_sample_main_header : Ast.GeneratedCode.sample_main_header.muts = [false, false] := rfl
@[rsfn] theorem fn_GeneratedCode_parser_file_content : (World.gen ord).fn? (some n!"GeneratedCode") n!"parser_file_content" = some Ast.GeneratedCode.parser_file_content := fn?_gen ord (by decide +kernel)
@[rsfn] theorem muts_GeneratedCode_parser_file_content : Ast.GeneratedCode.parser_file_content.muts = [false] := rfl
@[rsfn] theorem fn_GeneratedCode_rules_enum_file_content : (World.gen ord).fn? (some n!"GeneratedCode") n!"rules_enum_file_content" = some Ast.GeneratedCode.rules_enum_file_content := fn?_gen ord (by decide +kernel)
@[rsfn] theorem muts_GeneratedCode_rules_enum_file_content : Ast.GeneratedCode.rules_enum_file_content.muts = [false] := rfl
@[rsfn] theorem fn_GeneratedCode_print : (World.gen ord).fn? (some n!"GeneratedCode") n!"print" = some Ast.GeneratedCode.print := fn?_gen ord (by decide +kernel)
@[rsfn] theorem muts_GeneratedCode_print : Ast.GeneratedCode.print.muts = [false] := rfl
@[rsfn] theorem fn_GeneratedCode_generate : (World.gen ord).fn? (some n!"GeneratedCode") n!"generate" = some Ast.GeneratedCode.generate := fn?_gen ord (by decide +kernel)
@[rsfn] theorem muts_GeneratedCode_generate : Ast.GeneratedCode.generate.muts = [true, false, false, false, false] := rfl
@[rsfn] theorem fn_GeneratedCode_generate_rules_enum : (World.gen ord).fn? (some n!"GeneratedCode") n!"generate_rules_enum" = some Ast.GeneratedCode.generate_rules_enum := fn?_gen ord (by decide +kernel)
@[rsfn] theorem muts_GeneratedCode_generate_rules_enum : Ast.GeneratedCode.generate_rules_enum.muts = [false] := rfl
@[rsfn] theorem fn_GeneratedCode_match_rule : (World.gen ord).fn? (some n!"GeneratedCode") n!"match_rule" = some Ast.GeneratedCode.match_rule := fn?_gen ord (by decide +kernel)
@[rsfn] theorem muts_GeneratedCode_match_rule : Ast.GeneratedCode.match_rule.muts = [true, false, false, false, false, false] := rfl
@[rsfn] theorem fn_GeneratedCode_rule : (World.gen ord).fn? (some n!"GeneratedCode") n!"rule" = some Ast.GeneratedCode.rule := fn?_gen ord (by decide +kernel)
@[rsfn] theorem muts_GeneratedCode_rule : Ast.GeneratedCode.rule.muts = [true, false, false, false, false, false] := rfl
@[rsfn] theorem fn_GeneratedCode_lhs : (World.gen ord).fn? (some n!"GeneratedCode") n!"lhs" = some Ast.GeneratedCode.lhs := fn?_gen ord (by decide +kernel)
@[rsfn] theorem muts_GeneratedCode_lhs : Ast.GeneratedCode.lhs.muts = [false, false, false, false] := rfl
@[rsfn] theorem fn_GeneratedCode_comment : (World.gen ord).fn? (some n!"GeneratedCode") n!"comment" = some Ast.GeneratedCode.comment := fn?_gen ord (by decide +kernel)
@[rsfn] theorem muts_GeneratedCode_comment : Ast.GeneratedCode.comment.muts = [false, false, false, false] := rfl
@[rsfn] theorem fn_GeneratedCode_rhs : (World.gen ord).fn? (some n!"GeneratedCode") n!"rhs" = some Ast.GeneratedCode.rhs := fn?_gen ord (by decide +kernel)
@[rsfn] theorem muts_GeneratedCode_rhs : Ast.GeneratedCode.rhs.muts = [true, false, true, false, false, false, false] := rfl
@[rsfn] theorem fn_GeneratedCode_ordered_choice : (World.gen ord).fn? (some n!"GeneratedCode") n!"ordered_choice" = some Ast.GeneratedCode.ordered_choice := fn?_gen ord (by decide +kernel)
@[rsfn] theorem muts_GeneratedCode_ordered_choice : Ast.GeneratedCode.ordered_choice.muts = [true, false, true, false, false, false, false] := rfl
@[rsfn] theorem fn_GeneratedCode_sequence : (World.gen ord).fn? (some n!"GeneratedCode") n!"sequence" = some Ast.GeneratedCode.sequence := fn?_gen ord (by decide +kernel)
@[rsfn] theorem muts_GeneratedCode_sequence : Ast.GeneratedCode.sequence.muts = [true, false, true, false, false, false, false] := rfl
@[rsfn] theorem fn_GeneratedCode_atom : (World.gen ord).fn? (some n!"GeneratedCode") n!"atom" = some Ast.GeneratedCode.atom := fn?_gen ord (by decide +kernel)
@[rsfn] theorem muts_GeneratedCode_atom : Ast.GeneratedCode.atom.muts = [true, false, true, false, false, false, false] := rfl
@[rsfn] theorem fn_GeneratedCode_optional : (World.gen ord).fn? (some n!"GeneratedCode") n!"optional" = some Ast.GeneratedCode.optional := fn?_gen ord (by decide +kernel)
@[rsfn] theorem muts_GeneratedCode_optional : Ast.GeneratedCode.optional.muts = [true, false, true, false, false, false, false] := rfl
@[rsfn] theorem fn_GeneratedCode_one_or_more : (World.gen ord).fn? (some n!"GeneratedCode") n!"one_or_more" = some Ast.GeneratedCode.one_or_more := fn?_gen ord (by decide +kernel)
@[rsfn] theorem muts_GeneratedCode_one_or_more : Ast.GeneratedCode.one_or_more.muts = [true, false, true, false, false, false, false] := rfl
@[rsfn] theorem fn_GeneratedCode_zero_or_more : (World.gen ord).fn? (some n!"GeneratedCode") n!"zero_or_more" = some Ast.GeneratedCode.zero_or_more := fn?_gen ord (by decide +kernel)
@[rsfn] theorem muts_GeneratedCode_zero_or_more : Ast.GeneratedCode.zero_or_more.muts = [true, false, true, false, false, false, false] := rfl
@[rsfn] theorem fn_GeneratedCode_and_predicate : (World.gen ord).fn? (some n!"GeneratedCode") n!"and_predicate" = some Ast.GeneratedCode.and_predicate := fn?_gen ord (by decide +kernel)
@[rsfn] theorem muts_GeneratedCode_and_predicate : Ast.GeneratedCode.and_predicate.muts = [true, false, true, false, false, false, false] := rfl
@[rsfn] theorem fn_GeneratedCode_not_predicate : (World.gen ord).fn? (some n!"GeneratedCode") n!"not_predicate" = some Ast.GeneratedCode.not_predicate := fn?_gen ord (by decide +kernel)
@[rsfn] theorem muts_GeneratedCode_not_predicate : Ast.GeneratedCode.not_predicate.muts = [true, false, true, false, false, false, false] := rfl
@[rsfn] theorem fn_GeneratedCode_nucleus : (World.gen ord).fn? (some n!"GeneratedCode") n!"nucleus" = some Ast.GeneratedCode.nucleus := fn?_gen ord (by decide +kernel)
@[rsfn] theorem muts_GeneratedCode_nucleus : Ast.GeneratedCode.nucleus.muts = [true, false, true, false, false, false, false] := rfl
@[rsfn] theorem fn_GeneratedCode_hooked_call : (World.gen ord).fn? (some n!"GeneratedCode") n!"hooked_call" = some Ast.GeneratedCode.hooked_call := fn?_gen ord (by decide +kernel)
@[rsfn] theorem muts_GeneratedCode_hooked_call : Ast.GeneratedCode.hooked_call.muts = [true, false, true, false, false, false, false] := rfl
@[rsfn] theorem fn_GeneratedCode_string_terminal : (World.gen ord).fn? (some n!"GeneratedCode") n!"string_terminal" = some Ast.GeneratedCode.string_terminal := fn?_gen ord (by decide +kernel)
@[rsfn] theorem muts_GeneratedCode_string_terminal : Ast.GeneratedCode.string_terminal.muts = [true, false, false, false, false] := rfl
@[rsfn] theorem fn_GeneratedCode_ordered_choice_match_range : (World.gen ord).fn? (some n!"GeneratedCode") n!"ordered_choice_match_range" = some Ast.GeneratedCode.ordered_choice_match_range := fn?_gen ord (by decide +kernel)
@[rsfn] theorem muts_GeneratedCode_ordered_choice_match_range : Ast.GeneratedCode.ordered_choice_match_range.muts = [true, false, false, false, false] := rfl
@[rsfn] theorem fn_GeneratedCode_subexpression : (World.gen ord).fn? (some n!"GeneratedCode") n!"subexpression" = some Ast.GeneratedCode.subexpression := fn?_gen ord (by decide +kernel)
@[rsfn] theorem muts_GeneratedCode_subexpression : Ast.GeneratedCode.subexpression.muts = [true, false, true, false, false, false, false] := rfl
@[rsfn] theorem fn_GeneratedCode_var_name : (World.gen ord).fn? (some n!"GeneratedCode") n!"var_name" = some Ast.GeneratedCode.var_name := fn?_gen ord (by decide +kernel)
@[rsfn] theorem muts_GeneratedCode_var_name : Ast.GeneratedCode.var_name.muts = [false, true, false, false, false, false] := rfl
@[rsfn] theorem fn_GeneratedCode_terminal : (World.gen ord).fn? (some n!"GeneratedCode") n!"terminal" = some Ast.GeneratedCode.terminal := fn?_gen ord (by decide +kernel)
@[rsfn] theorem muts_GeneratedCode_terminal : Ast.GeneratedCode.terminal.muts = [true, false, false, false, false] := rfl
@[rsfn] theorem fn_count_lines : (World.gen ord).fn? none n!"count_lines" = some Ast.count_lines := fn?_gen ord (by decide +kernel)
@[rsfn] theorem muts_count_lines : Ast.count_lines.muts = [false, false] := rfl
@[rsfn] theorem fn_generate_parser : (World.gen ord).fn? none n!"generate_parser" = some Ast.generate_parser := fn?_gen ord (by decide +kernel)
@[rsfn] theorem muts_generate_parser : Ast.generate_parser.muts = [false] := rfl

theorem nofn_gen {ty name} (h : fns Ast.generator ty name = []) : (World.gen ord).fn? ty name = none := by simp [World.fn?, World.gen, h]
@[rsfn] theorem nofn_BasicContext_new : (World.gen ord).fn? (some n!"BasicContext") n!"new" = none := nofn_gen ord (by decide +kernel)
@[rsfn] theorem nofn_HashMap_new : (World.gen ord).fn? (some n!"HashMap") n!"new" = none := nofn_gen ord (by decide +kernel)
@[rsfn] theorem nofn_HashSet_new : (World.gen ord).fn? (some n!"HashSet") n!"new" = none := nofn_gen ord (by decide +kernel)
@[rsfn] theorem nofn_Key : (World.gen ord).fn? none n!"Key" = none := nofn_gen ord (by decide +kernel)
@[rsfn] theorem isTuple_Key : (World.gen ord).isTuple n!"Key" = true := by show List.any Ast.generator _ = _; decide +kernel
@[rsfn] theorem nofn_RefCell_new : (World.gen ord).fn? (some n!"RefCell") n!"new" = none := nofn_gen ord (by decide +kernel)
@[rsfn] theorem nofn_Reference_HookedCall : (World.gen ord).fn? (some n!"Reference") n!"HookedCall" = none := nofn_gen ord (by decide +kernel)
@[rsfn] theorem nofn_Reference_InlinedRule : (World.gen ord).fn? (some n!"Reference") n!"InlinedRule" = none := nofn_gen ord (by decide +kernel)
@[rsfn] theorem nofn_Reference_LeftRecursiveRule : (World.gen ord).fn? (some n!"Reference") n!"LeftRecursiveRule" = none := nofn_gen ord (by decide +kernel)
@[rsfn] theorem nofn_Reference_OrderedChoiceMatchRange : (World.gen ord).fn? (some n!"Reference") n!"OrderedChoiceMatchRange" = none := nofn_gen ord (by decide +kernel)
@[rsfn] theorem nofn_Reference_StringTerminal : (World.gen ord).fn? (some n!"Reference") n!"StringTerminal" = none := nofn_gen ord (by decide +kernel)
@[rsfn] theorem nofn_Reference_StringTerminalAsciiOpt : (World.gen ord).fn? (some n!"Reference") n!"StringTerminalAsciiOpt" = none := nofn_gen ord (by decide +kernel)
@[rsfn] theorem nofn_Reference_Terminal : (World.gen ord).fn? (some n!"Reference") n!"Terminal" = none := nofn_gen ord (by decide +kernel)
@[rsfn] theorem nofn_Reference_VarName : (World.gen ord).fn? (some n!"Reference") n!"VarName" = none := nofn_gen ord (by decide +kernel)
@[rsfn] theorem nofn_Some : (World.gen ord).fn? none n!"Some" = none := nofn_gen ord (by decide +kernel)
@[rsfn] theorem isTuple_Some : (World.gen ord).isTuple n!"Some" = false := by show List.any Ast.generator _ = _; decide +kernel
@[rsfn] theorem nofn_Source_new : (World.gen ord).fn? (some n!"Source") n!"new" = none := nofn_gen ord (by decide +kernel)
@[rsfn] theorem nofn_String_from : (World.gen ord).fn? (some n!"String") n!"from" = none := nofn_gen ord (by decide +kernel)
@[rsfn] theorem nofn_UserState_new : (World.gen ord).fn? (some n!"UserState") n!"new" = none := nofn_gen ord (by decide +kernel)
@[rsfn] theorem nofn_Vec_new : (World.gen ord).fn? (some n!"Vec") n!"new" = none := nofn_gen ord (by decide +kernel)
@[rsfn] theorem nofn_char_from_u32 : (World.gen ord).fn? (some n!"char") n!"from_u32" = none := nofn_gen ord (by decide +kernel)
@[rsfn] theorem nofn_grammar : (World.gen ord).fn? none n!"grammar" = none := nofn_gen ord (by decide +kernel)
@[rsfn] theorem isTuple_grammar : (World.gen ord).isTuple n!"grammar" = false := by show List.any Ast.generator _ = _; decide +kernel
@[rsfn] theorem nofn_panic_any : (World.gen ord).fn? none n!"panic_any" = none := nofn_gen ord (by decide +kernel)
@[rsfn] theorem isTuple_panic_any : (World.gen ord).isTuple n!"panic_any" = false := by show List.any Ast.generator _ = _; decide +kernel
@[rsfn] theorem nofn_range : (World.gen ord).fn? none n!"range" = none := nofn_gen ord (by decide +kernel)
@[rsfn] theorem isTuple_range : (World.gen ord).isTuple n!"range" = false := by show List.any Ast.generator _ = _; decide +kernel
@[rsfn] theorem nofn_read_to_string : (World.gen ord).fn? none n!"read_to_string" = none := nofn_gen ord (by decide +kernel)
@[rsfn] theorem isTuple_read_to_string : (World.gen ord).isTuple n!"read_to_string" = false := by show List.any Ast.generator _ = _; decide +kernel
@[rsfn] theorem nofn_rule_name : (World.gen ord).fn? none n!"rule_name" = none := nofn_gen ord (by decide +kernel)
@[rsfn] theorem isTuple_rule_name : (World.gen ord).isTuple n!"rule_name" = false := by show List.any Ast.generator _ = _; decide +kernel
@[rsfn] theorem nofn_rule_str : (World.gen ord).fn? none n!"rule_str" = none := nofn_gen ord (by decide +kernel)
@[rsfn] theorem isTuple_rule_str : (World.gen ord).isTuple n!"rule_str" = false := by show List.any Ast.generator _ = _; decide +kernel
@[rsfn] theorem nofn_u32_from_str_radix : (World.gen ord).fn? (some n!"u32") n!"from_str_radix" = none := nofn_gen ord (by decide +kernel)

end PP.Rs
