import Verif.Model.Interp

/-! Generated by tools/translate.py from parser/src/parser.rs -/
namespace PP

/-- parser/src/parser.rs: the rule functions -/
inductive Dsl where
  | r_alphabet_upper
  | r_alphabet_lower
  | r_num
  | r_numnozero
  | r_hexval
  | r_spaces
  | r_specials
  | r_ascii
  | r_apostrophe
  | r_quotationmark
  | r_left_angle_bracket
  | r_right_angle_bracket
  | r_left_bracket
  | r_right_bracket
  | r_assignment
  | r_end_rule
  | r_ampersand
  | r_exclamation_mark
  | r_plus
  | r_star
  | r_question_mark
  | r_comma
  | r_newline
  | r_backslash
  | r_var_name
  | r_var_name_decl
  | r_var_name_ref
  | r_hex
  | r_integer
  | r_orderedchoicematchrange
  | r_subexpression
  | r_hooked_call
  | r_epsilon
  | r_stringterminal
  | r_terminal
  | r_nucleus
  | r_atom
  | r_and_predicate
  | r_not_predicate
  | r_sequence
  | r_ordered_choice
  | r_one_or_more
  | r_zero_or_more
  | r_optional
  | r_whitespace
  | r_rhs
  | r_lhs
  | r_rule
  | r_grammar
  | r_comment
  | r_semantic_instructions
  | r_inline
  deriving DecidableEq, Repr

namespace Dsl

/-- parser/src/parser.rs, translated closure by closure (line ranges of the functions on the right). -/
def body : Dsl → Expr Dsl
  | .r_alphabet_upper => -- parser/src/parser.rs:7-17
    .matchRange 65 90
  | .r_alphabet_lower => -- parser/src/parser.rs:19-28
    .matchRange 97 122
  | .r_num => -- parser/src/parser.rs:30-39
    .matchRange 48 57
  | .r_numnozero => -- parser/src/parser.rs:41-50
    .matchRange 49 57
  | .r_hexval => -- parser/src/parser.rs:52-63
    .orderedChoice (.matchRange 48 57) (.matchRange 65 70)
  | .r_spaces => -- parser/src/parser.rs:65-80
    .orderedChoice (.orderedChoice (.orderedChoice (.terminal 10) (.terminal 9)) (.terminal 13)) (.terminal 32)
  | .r_specials => -- parser/src/parser.rs:82-107
    .sequence (.notPredicate (.subexpression (.orderedChoice (.orderedChoice (.orderedChoice (.inlined
    .r_alphabet_upper) (.inlined .r_alphabet_lower)) (.varName .r_num)) (.inlined .r_spaces)))) (.matchRange 0
    255)
  | .r_ascii => -- parser/src/parser.rs:109-118
    .matchRange 0 255
  | .r_apostrophe => -- parser/src/parser.rs:120-129
    .terminal 34
  | .r_quotationmark => -- parser/src/parser.rs:131-140
    .terminal 39
  | .r_left_angle_bracket => -- parser/src/parser.rs:142-151
    .terminal 60
  | .r_right_angle_bracket => -- parser/src/parser.rs:153-162
    .terminal 62
  | .r_left_bracket => -- parser/src/parser.rs:164-173
    .terminal 40
  | .r_right_bracket => -- parser/src/parser.rs:175-184
    .terminal 41
  | .r_assignment => -- parser/src/parser.rs:186-195
    .terminal 61
  | .r_end_rule => -- parser/src/parser.rs:197-206
    .terminal 59
  | .r_ampersand => -- parser/src/parser.rs:208-217
    .terminal 38
  | .r_exclamation_mark => -- parser/src/parser.rs:219-228
    .terminal 33
  | .r_plus => -- parser/src/parser.rs:230-239
    .terminal 43
  | .r_star => -- parser/src/parser.rs:241-250
    .terminal 42
  | .r_question_mark => -- parser/src/parser.rs:252-261
    .terminal 63
  | .r_comma => -- parser/src/parser.rs:263-272
    .terminal 44
  | .r_newline => -- parser/src/parser.rs:274-283
    .terminal 10
  | .r_backslash => -- parser/src/parser.rs:285-294
    .terminal 47
  | .r_var_name => -- parser/src/parser.rs:296-324
    .sequence (.subexpression (.orderedChoice (.inlined .r_alphabet_lower) (.inlined .r_alphabet_upper)))
    (.zeroOrMore (.subexpression (.orderedChoice (.orderedChoice (.inlined .r_alphabet_lower) (.inlined
    .r_alphabet_upper)) (.terminal 95))))
  | .r_var_name_decl => -- parser/src/parser.rs:326-345
    .sequence (.sequence (.inlined .r_left_angle_bracket) (.inlined .r_var_name)) (.inlined
    .r_right_angle_bracket)
  | .r_var_name_ref => -- parser/src/parser.rs:347-366
    .sequence (.sequence (.inlined .r_left_angle_bracket) (.inlined .r_var_name)) (.inlined
    .r_right_angle_bracket)
  | .r_hex => -- parser/src/parser.rs:368-383
    .sequence (.sequence (.terminal 48) (.terminal 120)) (.oneOrMore (.varName .r_hexval))
  | .r_integer => -- parser/src/parser.rs:385-398
    .sequence (.varName .r_numnozero) (.zeroOrMore (.varName .r_num))
  | .r_orderedchoicematchrange => -- parser/src/parser.rs:400-445
    .sequence (.sequence (.sequence (.sequence (.sequence (.sequence (.sequence (.sequence (.sequence (.inlined
    .r_whitespace) (.terminal 91)) (.inlined .r_whitespace)) (.subexpression (.orderedChoice (.orderedChoice
    (.varName .r_terminal) (.varName .r_integer)) (.varName .r_hex)))) (.terminal 46)) (.terminal 46))
    (.subexpression (.orderedChoice (.orderedChoice (.varName .r_terminal) (.varName .r_integer)) (.varName
    .r_hex)))) (.inlined .r_whitespace)) (.terminal 93)) (.inlined .r_whitespace)
  | .r_subexpression => -- parser/src/parser.rs:447-464
    .sequence (.sequence (.inlined .r_left_bracket) (.varName .r_rhs)) (.inlined .r_right_bracket)
  | .r_hooked_call => -- parser/src/parser.rs:466-488
    .sequence (.sequence (.sequence (.inlined .r_var_name) (.inlined .r_left_bracket)) (.varName .r_rhs))
    (.inlined .r_right_bracket)
  | .r_epsilon => -- parser/src/parser.rs:490-505
    .sequence (.inlined .r_quotationmark) (.inlined .r_quotationmark)
  | .r_stringterminal => -- parser/src/parser.rs:507-545
    .orderedChoice (.orderedChoice (.subexpression (.sequence (.sequence (.sequence (.inlined .r_apostrophe)
    (.notPredicate (.inlined .r_apostrophe))) (.subexpression (.sequence (.varName .r_ascii) (.oneOrMore
    (.subexpression (.sequence (.notPredicate (.inlined .r_apostrophe)) (.varName .r_ascii))))))) (.inlined
    .r_apostrophe))) (.varName .r_hex)) (.varName .r_integer)
  | .r_terminal => -- parser/src/parser.rs:547-585
    .orderedChoice (.orderedChoice (.subexpression (.sequence (.sequence (.inlined .r_quotationmark) (.varName
    .r_ascii)) (.inlined .r_quotationmark))) (.subexpression (.sequence (.sequence (.sequence (.inlined
    .r_quotationmark) (.terminal 92)) (.subexpression (.orderedChoice (.orderedChoice (.terminal 110) (.terminal
    114)) (.terminal 116)))) (.inlined .r_quotationmark)))) (.varName .r_epsilon)
  | .r_nucleus => -- parser/src/parser.rs:587-616
    .sequence (.subexpression (.orderedChoice (.orderedChoice (.orderedChoice (.orderedChoice (.orderedChoice
    (.varName .r_orderedchoicematchrange) (.varName .r_hooked_call)) (.varName .r_subexpression)) (.varName
    .r_terminal)) (.varName .r_stringterminal)) (.varName .r_var_name_ref))) (.inlined .r_whitespace)
  | .r_atom => -- parser/src/parser.rs:618-642
    .sequence (.subexpression (.orderedChoice (.orderedChoice (.orderedChoice (.orderedChoice (.orderedChoice
    (.varName .r_and_predicate) (.varName .r_not_predicate)) (.varName .r_one_or_more)) (.varName
    .r_zero_or_more)) (.varName .r_optional)) (.varName .r_nucleus))) (.inlined .r_whitespace)
  | .r_and_predicate => -- parser/src/parser.rs:644-657
    .sequence (.inlined .r_ampersand) (.varName .r_nucleus)
  | .r_not_predicate => -- parser/src/parser.rs:659-672
    .sequence (.inlined .r_exclamation_mark) (.varName .r_nucleus)
  | .r_sequence => -- parser/src/parser.rs:674-709
    .sequence (.sequence (.sequence (.sequence (.sequence (.varName .r_atom) (.inlined .r_whitespace)) (.inlined
    .r_comma)) (.inlined .r_whitespace)) (.varName .r_atom)) (.zeroOrMore (.subexpression (.sequence (.sequence
    (.inlined .r_comma) (.inlined .r_whitespace)) (.varName .r_atom))))
  | .r_ordered_choice => -- parser/src/parser.rs:711-750
    .sequence (.sequence (.sequence (.sequence (.sequence (.varName .r_atom) (.inlined .r_whitespace)) (.inlined
    .r_backslash)) (.inlined .r_whitespace)) (.varName .r_atom)) (.zeroOrMore (.subexpression (.sequence
    (.sequence (.sequence (.inlined .r_whitespace) (.inlined .r_backslash)) (.inlined .r_whitespace)) (.varName
    .r_atom))))
  | .r_one_or_more => -- parser/src/parser.rs:752-769
    .sequence (.sequence (.varName .r_nucleus) (.inlined .r_whitespace)) (.inlined .r_plus)
  | .r_zero_or_more => -- parser/src/parser.rs:771-788
    .sequence (.sequence (.varName .r_nucleus) (.inlined .r_whitespace)) (.inlined .r_star)
  | .r_optional => -- parser/src/parser.rs:790-807
    .sequence (.sequence (.varName .r_nucleus) (.inlined .r_whitespace)) (.inlined .r_question_mark)
  | .r_whitespace => -- parser/src/parser.rs:809-826
    .zeroOrMore (.subexpression (.orderedChoice (.orderedChoice (.orderedChoice (.terminal 32) (.terminal 10))
    (.terminal 13)) (.terminal 9)))
  | .r_rhs => -- parser/src/parser.rs:828-846
    .sequence (.inlined .r_whitespace) (.subexpression (.orderedChoice (.orderedChoice (.varName .r_sequence)
    (.varName .r_ordered_choice)) (.varName .r_atom)))
  | .r_lhs => -- parser/src/parser.rs:848-874
    .sequence (.varName .r_var_name_decl) (.optional (.subexpression (.sequence (.sequence (.inlined
    .r_whitespace) (.varName .r_semantic_instructions)) (.inlined .r_whitespace))))
  | .r_rule => -- parser/src/parser.rs:876-914
    .sequence (.sequence (.sequence (.sequence (.sequence (.sequence (.sequence (.sequence (.varName .r_lhs)
    (.inlined .r_whitespace)) (.inlined .r_assignment)) (.inlined .r_whitespace)) (.varName .r_rhs)) (.inlined
    .r_whitespace)) (.inlined .r_end_rule)) (.inlined .r_whitespace)) (.zeroOrMore (.varName .r_comment))
  | .r_grammar => -- parser/src/parser.rs:916-932
    .sequence (.oneOrMore (.varName .r_rule)) (.optional (.inlined .r_whitespace))
  | .r_comment => -- parser/src/parser.rs:934-960
    .sequence (.sequence (.sequence (.sequence (.inlined .r_whitespace) (.terminal 35)) (.zeroOrMore
    (.subexpression (.sequence (.notPredicate (.terminal 35)) (.varName .r_ascii))))) (.terminal 35)) (.inlined
    .r_whitespace)
  | .r_semantic_instructions => -- parser/src/parser.rs:962-971
    .varName .r_inline
  | .r_inline => -- parser/src/parser.rs:973-983
    .stringTerminal [73, 110, 108, 105, 110, 101]

/-- all rule functions -/
def all : List Dsl :=
  [.r_alphabet_upper, .r_alphabet_lower, .r_num, .r_numnozero, .r_hexval, .r_spaces, .r_specials, .r_ascii,
  .r_apostrophe, .r_quotationmark, .r_left_angle_bracket, .r_right_angle_bracket, .r_left_bracket,
  .r_right_bracket, .r_assignment, .r_end_rule, .r_ampersand, .r_exclamation_mark, .r_plus, .r_star,
  .r_question_mark, .r_comma, .r_newline, .r_backslash, .r_var_name, .r_var_name_decl, .r_var_name_ref, .r_hex,
  .r_integer, .r_orderedchoicematchrange, .r_subexpression, .r_hooked_call, .r_epsilon, .r_stringterminal,
  .r_terminal, .r_nucleus, .r_atom, .r_and_predicate, .r_not_predicate, .r_sequence, .r_ordered_choice,
  .r_one_or_more, .r_zero_or_more, .r_optional, .r_whitespace, .r_rhs, .r_lhs, .r_rule, .r_grammar, .r_comment,
  .r_semantic_instructions, .r_inline]

theorem mem_all (r : Dsl) : r ∈ all := by cases r <;> decide

end Dsl

end PP
