import Verif.Model.Parsers
import Verif.Model.Gen.Text

/-! Generated by tools/dsl2lean.py: the grammar files of the repository, the enums and the function names of the checked-in parsers. -/
namespace PP

namespace Files

/-- parser/Grammar.dsl:1-59, one string per rule -/
def dslFile : List String := [
  "<Alphabet_Upper> Inline = ['A'..'Z']; #We all love commments#\n",
  "<Alphabet_Lower> Inline =['a'..'z'];\n",
  "<Num> = [0x30..0x39];\n",
  "<NumNoZero> = [0x31..0x39];\n",
  "<HexVal>= [0x30..0x39]/[0x41..0x46];\n",
  "<Spaces> Inline = '\\n'/'\\t'/'\\r'/' ';\n",
  "<Specials> Inline = !(<Alphabet_Upper>/<Alphabet_Lower>/<Num>/<Spaces>),[0x0..0xFF] ;\n",
  "<ASCII> = [0x00..0xFF];\n",
  "<Apostrophe> Inline = '\"';\n",
  "<QuotationMark> Inline = ''';\n",
  "<Left_Angle_Bracket> Inline = '<';\n",
  "<Right_Angle_Bracket> Inline = '>';\n",
  "<Left_Bracket> Inline = '(';\n",
  "<Right_Bracket> Inline = ')';\n",
  "<Assignment> Inline = '=';\n",
  "<End_Rule> Inline = ';';\n",
  "<Ampersand> Inline = '&';\n",
  "<Exclamation_Mark> Inline = '!';\n",
  "<Plus> Inline = '+';\n",
  "<Star> Inline = '*';\n",
  "<Question_Mark> Inline = '?';\n",
  "<Comma> Inline = ',';\n",
  "<Newline> = '\\n';\n",
  "<Backslash> Inline = '/';\n\n",
  "<Var_Name> Inline = (<Alphabet_Lower>/<Alphabet_Upper>),(<Alphabet_Lower>/<Alphabet_Upper>/'_')*;\n",
  "<Var_Name_Decl> = <Left_Angle_Bracket>, <Var_Name>, <Right_Angle_Bracket>;\n",
  "<Var_Name_Ref>= <Left_Angle_Bracket>, <Var_Name>, <Right_Angle_Bracket>;\n",
  "<Hex> = '0', 'x', <HexVal>+; #Replace with custom code#\n",
  "<Integer> = <NumNoZero>, <Num>*; #No negative values since that is meaningless in this context#\n",
  "<OrderedChoiceMatchRange> = <Whitespace>, '[', <Whitespace>,(<Terminal>/<Integer>/<Hex>),'.', '.',(<Terminal>/<Integer>/<Hex>) ,<Whitespace>, ']', <Whitespace>;\n\n\n",
  "<Subexpression> = <Left_Bracket>,<RHS>,<Right_Bracket>;\n",
  "<Hooked_Call> = <Var_Name>, <Left_Bracket>,<RHS>,<Right_Bracket>; # Allows for handling context senstive grammars by calling out to handwritten code. # \n",
  "<Epsilon> = <QuotationMark>, <QuotationMark>;\n",
  "<StringTerminal> = (<Apostrophe>, !<Apostrophe>, (<ASCII>, (!<Apostrophe>,<ASCII>)+), <Apostrophe>)/<Hex>/<Integer>; #Multibyte matches essentially#\n\n",
  "<Terminal> = (<QuotationMark>,<ASCII>,<QuotationMark>)/(<QuotationMark>,'\\',('n'/'r'/'t'),<QuotationMark>)/<Epsilon>;\n",
  "<Nucleus> = (<OrderedChoiceMatchRange>/<Hooked_Call>/<Subexpression>/<Terminal>/<StringTerminal>/<Var_Name_Ref>), <Whitespace>;\n",
  "<Atom> = (<And_Predicate>/<Not_Predicate>/<One_Or_More>/<Zero_Or_More>/<Optional>/<Nucleus>), <Whitespace>;\n\n",
  "<And_Predicate> = <Ampersand>, <Nucleus>;\n",
  "<Not_Predicate> = <Exclamation_Mark>, <Nucleus>;\n",
  "<Sequence> = <Atom>, <Whitespace>, <Comma>, <Whitespace>, <Atom>, (<Comma>, <Whitespace>, <Atom>)*;\n",
  "<Ordered_Choice> = <Atom>, <Whitespace>,<Backslash>, <Whitespace>,<Atom>, (<Whitespace>, <Backslash>, <Whitespace>, <Atom>)*;\n",
  "<One_Or_More> = <Nucleus>, <Whitespace>, <Plus>;\n",
  "<Zero_Or_More> = <Nucleus>, <Whitespace>, <Star>;\n",
  "<Optional> = <Nucleus>, <Whitespace>, <Question_Mark>;\n\n",
  "<Whitespace> Inline = (' '/'\\n'/'\\r'/'\\t')*;\n",
  "<RHS> = <Whitespace>, (<Sequence>/<Ordered_Choice>/<Atom>);\n",
  "<LHS> = <Var_Name_Decl>, (<Whitespace>, <Semantic_Instructions>, <Whitespace>)?;\n",
  "<Rule> = <LHS>, <Whitespace>, <Assignment>, <Whitespace>, <RHS>, <Whitespace>, <End_Rule>, <Whitespace>, <Comment>*;\n",
  "<Grammar> = <Rule>+, <Whitespace>?;\n#Lemme just check comments work# #Double up dem comments#\n",
  "<Comment> = <Whitespace>, '#', (!'#',<ASCII>)*, '#', <Whitespace>;\n",
  "<Semantic_Instructions> = <Inline>;\n",
  "<Inline> = \"Inline\"; #Comment#"]

/-- parser/src/rules.rs:17-49 -/
def dslEnum : List String := ["ASCII", "And_Predicate", "Atom", "Comment", "Epsilon", "Grammar", "Hex", "HexVal", "Hooked_Call", "Inline", "Integer", "LHS", "Newline", "Not_Predicate", "Nucleus", "Num", "NumNoZero", "One_Or_More", "Optional", "OrderedChoiceMatchRange", "Ordered_Choice", "RHS", "Rule", "Semantic_Instructions", "Sequence", "StringTerminal", "Subexpression", "Terminal", "Var_Name_Decl", "Var_Name_Ref", "Zero_Or_More"]

/-- parser/src/parser.rs: the names of the rule functions -/
def dslName : Dsl → String
  | .r_alphabet_upper => "alphabet_upper"
  | .r_alphabet_lower => "alphabet_lower"
  | .r_num => "num"
  | .r_numnozero => "numnozero"
  | .r_hexval => "hexval"
  | .r_spaces => "spaces"
  | .r_specials => "specials"
  | .r_ascii => "ascii"
  | .r_apostrophe => "apostrophe"
  | .r_quotationmark => "quotationmark"
  | .r_left_angle_bracket => "left_angle_bracket"
  | .r_right_angle_bracket => "right_angle_bracket"
  | .r_left_bracket => "left_bracket"
  | .r_right_bracket => "right_bracket"
  | .r_assignment => "assignment"
  | .r_end_rule => "end_rule"
  | .r_ampersand => "ampersand"
  | .r_exclamation_mark => "exclamation_mark"
  | .r_plus => "plus"
  | .r_star => "star"
  | .r_question_mark => "question_mark"
  | .r_comma => "comma"
  | .r_newline => "newline"
  | .r_backslash => "backslash"
  | .r_var_name => "var_name"
  | .r_var_name_decl => "var_name_decl"
  | .r_var_name_ref => "var_name_ref"
  | .r_hex => "hex"
  | .r_integer => "integer"
  | .r_orderedchoicematchrange => "orderedchoicematchrange"
  | .r_subexpression => "subexpression"
  | .r_hooked_call => "hooked_call"
  | .r_epsilon => "epsilon"
  | .r_stringterminal => "stringterminal"
  | .r_terminal => "terminal"
  | .r_nucleus => "nucleus"
  | .r_atom => "atom"
  | .r_and_predicate => "and_predicate"
  | .r_not_predicate => "not_predicate"
  | .r_sequence => "sequence"
  | .r_ordered_choice => "ordered_choice"
  | .r_one_or_more => "one_or_more"
  | .r_zero_or_more => "zero_or_more"
  | .r_optional => "optional"
  | .r_whitespace => "whitespace"
  | .r_rhs => "rhs"
  | .r_lhs => "lhs"
  | .r_rule => "rule"
  | .r_grammar => "grammar"
  | .r_comment => "comment"
  | .r_semantic_instructions => "semantic_instructions"
  | .r_inline => "inline"

/-- examples/example_1/example_1.dsl:1-10, one string per rule -/
def ex1File : List String := [
  "<expr> = <addition>/<subtraction>/<integer>;\n",
  "<addition> = <expr>, '+', <integer>;\n",
  "<subtraction> = <expr>, '-', <integer>;\n",
  "<onenine> Inline = ['1'..'9'];\n",
  "<digit> Inline = ['0'..'9'];\n",
  "<integer> = <onenine>, <digit>*;\n\n",
  "<Grammar> = <expr>; #This is a\nMulti line comment\nSo we can check output is correct # "]

/-- examples/example_1_parser/src/rules.rs:17-23 -/
def ex1Enum : List String := ["Grammar", "Addition", "Expr", "Integer", "Subtraction"]

/-- examples/example_1_parser/src/parser.rs: the names of the rule functions -/
def ex1Name : Ex1 → String
  | .r_expr => "expr"
  | .r_addition => "addition"
  | .r_subtraction => "subtraction"
  | .r_onenine => "onenine"
  | .r_digit => "digit"
  | .r_integer => "integer"
  | .r_grammar => "grammar"

/-- examples/example_2/example_2.dsl:1-3, one string per rule -/
def ex2File : List String := [
  "<A> = (<B>, 'a')/'a';\n",
  "<B> = (<A>, 'b')/'b';\n",
  "<Grammar> = <A>;"]

/-- examples/example_2_parser/src/rules.rs:17-21 -/
def ex2Enum : List String := ["A", "B", "Grammar"]

/-- examples/example_2_parser/src/parser.rs: the names of the rule functions -/
def ex2Name : Ex2 → String
  | .r_a => "a"
  | .r_b => "b"
  | .r_grammar => "grammar"

/-- examples/example_3_basic_maths/example_3_basic_maths.dsl:1-19, one string per rule -/
def ex3File : List String := [
  "<onenine> Inline = ['1'..'9'];\n",
  "<digit> Inline = ['0'..'9'];\n",
  "<integer> = <sign>, ((<onenine>, <digit>+)/<digit>);\n\n",
  "<number> = <integer>, <fraction>?, <exponent>?; \n",
  "<fraction> = ('.', <digit>+);\n",
  "<exponent> = (('E'/'e'), <sign>, <digit>+);\n",
  "<sign> = ('+'/'-')?;\n\n",
  "<addition> = <expr>, '+', <term>;\n",
  "<subtraction> = <expr>, '-', <term>;\n",
  "<multiplication> = <term>, '*', <factor>;\n",
  "<division> = <term>, '/', <factor>;\n",
  "<parentheses> = '(', <expr>, ')';\n\n",
  "<expr>   =  <addition>/<subtraction>/<term>;\n",
  "<term>   =   <multiplication>/<division>/<factor>;\n",
  "<factor> =   <parentheses>/<number>;\n",
  "<Grammar> = <expr>;"]

/-- examples/example_3_basic_maths_parser/src/rules.rs:17-32 -/
def ex3Enum : List String := ["Grammar", "Addition", "Division", "Exponent", "Expr", "Factor", "Fraction", "Integer", "Multiplication", "Number", "Parentheses", "Sign", "Subtraction", "Term"]

/-- examples/example_3_basic_maths_parser/src/parser.rs: the names of the rule functions -/
def ex3Name : Ex3 → String
  | .r_onenine => "onenine"
  | .r_digit => "digit"
  | .r_integer => "integer"
  | .r_number => "number"
  | .r_fraction => "fraction"
  | .r_exponent => "exponent"
  | .r_sign => "sign"
  | .r_addition => "addition"
  | .r_subtraction => "subtraction"
  | .r_multiplication => "multiplication"
  | .r_division => "division"
  | .r_parentheses => "parentheses"
  | .r_expr => "expr"
  | .r_term => "term"
  | .r_factor => "factor"
  | .r_grammar => "grammar"

/-- examples/example_4_full_maths/example_4_full_maths.dsl:1-21, one string per rule -/
def ex4File : List String := [
  "<onenine> Inline = ['1'..'9'];\n",
  "<digit> Inline = ['0'..'9'];\n",
  "<integer> = <sign>, ((<onenine>, <digit>+)/<digit>);\n\n",
  "<number> = <integer>, <fraction>?, <exponent>?; \n",
  "<fraction> = ('.', <digit>+);\n",
  "<exponent> = (('E'/'e'), <sign>, <digit>+);\n",
  "<sign> = ('+'/'-')?;\n\n",
  "<addition> = <expr>, '+', <term>;\n",
  "<subtraction> = <expr>, '-', <term>;\n",
  "<multiplication> = <term>, '*', <power_expr>;\n",
  "<division> = <term>, '/', <power_expr>;\n",
  "<parentheses> = '(', <expr>, ')';\n",
  "<power> = <factor>, '^', <power_expr>;\n\n",
  "<expr>   =  <addition>/<subtraction>/<term>;\n",
  "<term>   =   <multiplication>/<division>/<power_expr>;\n",
  "<power_expr> = <power>/<factor>;\n",
  "<factor> =   <parentheses>/<number>;\n",
  "<Grammar> = <expr>;"]

/-- examples/example_4_full_maths_parser/src/rules.rs:17-34 -/
def ex4Enum : List String := ["Grammar", "Addition", "Division", "Exponent", "Expr", "Factor", "Fraction", "Integer", "Multiplication", "Number", "Parentheses", "Power", "Power_expr", "Sign", "Subtraction", "Term"]

/-- examples/example_4_full_maths_parser/src/parser.rs: the names of the rule functions -/
def ex4Name : Ex4 → String
  | .r_onenine => "onenine"
  | .r_digit => "digit"
  | .r_integer => "integer"
  | .r_number => "number"
  | .r_fraction => "fraction"
  | .r_exponent => "exponent"
  | .r_sign => "sign"
  | .r_addition => "addition"
  | .r_subtraction => "subtraction"
  | .r_multiplication => "multiplication"
  | .r_division => "division"
  | .r_parentheses => "parentheses"
  | .r_power => "power"
  | .r_expr => "expr"
  | .r_term => "term"
  | .r_power_expr => "power_expr"
  | .r_factor => "factor"
  | .r_grammar => "grammar"

/-- examples/example_5_lr_num/LR_num.dsl:1-3, one string per rule -/
def ex5File : List String := [
  "<num> = [0x30..0x39];\n",
  "<expr> = (<expr>, '-', <num>) / <num>; # Should match 0-0-0-0-0-0-0-0 etc #\n",
  "<Grammar> = <expr>; "]

/-- examples/example_5_lr_num_parser/src/rules.rs:17-21 -/
def ex5Enum : List String := ["Grammar", "Expr", "Num"]

/-- examples/example_5_lr_num_parser/src/parser.rs: the names of the rule functions -/
def ex5Name : Ex5 → String
  | .r_num => "num"
  | .r_expr => "expr"
  | .r_grammar => "grammar"

/-- examples/example_6_term_and_fact/term_and_fact.dsl:1-4, one string per rule -/
def ex6File : List String := [
  "<num> = [0x30..0x39];\n",
  "<term> = (<term>, '+', <fact>)/(<term>, '-', <fact>)/<fact>;\n",
  "<fact> = (<fact>, '*', <num>)/(<fact>, '/', <num>)/<num>;\n",
  "<Grammar> = <term>; "]

/-- examples/example_6_term_and_fact_parser/src/rules.rs:17-22 -/
def ex6Enum : List String := ["Grammar", "Fact", "Num", "Term"]

/-- examples/example_6_term_and_fact_parser/src/parser.rs: the names of the rule functions -/
def ex6Name : Ex6 → String
  | .r_num => "num"
  | .r_term => "term"
  | .r_fact => "fact"
  | .r_grammar => "grammar"

/-- examples/example_7_indirect_lr_num/LR_num_indirect.dsl:1-4, one string per rule -/
def ex7File : List String := [
  "<num> = [0x30..0x39];\n",
  "<intermediate> = <expr>;\n",
  "<expr> = (<intermediate>, '-', <num>) / <num>; # Should match 0-0-0-0-0-0-0-0 etc #\n",
  "<Grammar> = <expr>; "]

/-- examples/example_7_indirect_lr_num_parser/src/rules.rs:17-22 -/
def ex7Enum : List String := ["Grammar", "Expr", "Intermediate", "Num"]

/-- examples/example_7_indirect_lr_num_parser/src/parser.rs: the names of the rule functions -/
def ex7Name : Ex7 → String
  | .r_num => "num"
  | .r_intermediate => "intermediate"
  | .r_expr => "expr"
  | .r_grammar => "grammar"

/-- examples/example_8_indirect_lr_3_level/LR_num_indirect_3_level.dsl:1-6, one string per rule -/
def ex8File : List String := [
  "<num> = [0x30..0x39];\n",
  "<test_LR_num> = <num>;\n",
  "<test_indirect_three_level_A> = (<test_indirect_three_level_B>, '-', <test_LR_num>) / <test_LR_num>;\n",
  "<test_indirect_three_level_B> = <test_indirect_three_level_C>;\n",
  "<test_indirect_three_level_C> = <test_indirect_three_level_A>;\n",
  "<Grammar> = <test_indirect_three_level_A>;"]

/-- examples/example_8_indirect_lr_3_level_parser/src/rules.rs:17-24 -/
def ex8Enum : List String := ["Grammar", "Num", "Test_LR_num", "Test_indirect_three_level_A", "Test_indirect_three_level_B", "Test_indirect_three_level_C"]

/-- examples/example_8_indirect_lr_3_level_parser/src/parser.rs: the names of the rule functions -/
def ex8Name : Ex8 → String
  | .r_num => "num"
  | .r_test_lr_num => "test_lr_num"
  | .r_test_indirect_three_level_a => "test_indirect_three_level_a"
  | .r_test_indirect_three_level_b => "test_indirect_three_level_b"
  | .r_test_indirect_three_level_c => "test_indirect_three_level_c"
  | .r_grammar => "grammar"

/-- examples/example_9_indirect_lr_5_level/LR_num_indirect_5_level.dsl:1-8, one string per rule -/
def ex9File : List String := [
  "<num> = [0x30..0x39];\n",
  "<test_LR_num> = <num>;\n",
  "<test_indirect_three_level_A> = (<test_indirect_three_level_B>, '-', <test_LR_num>) / <test_LR_num>;\n",
  "<test_indirect_three_level_B> = <test_indirect_three_level_C>;\n",
  "<test_indirect_three_level_C> = <test_indirect_three_level_D>;\n",
  "<test_indirect_three_level_D> = <test_indirect_three_level_E>;\n",
  "<test_indirect_three_level_E> = <test_indirect_three_level_A>;\n",
  "<Grammar> = <test_indirect_three_level_A>;"]

/-- examples/example_9_indirect_lr_5_level_parser/src/rules.rs:17-26 -/
def ex9Enum : List String := ["Grammar", "Num", "Test_LR_num", "Test_indirect_three_level_A", "Test_indirect_three_level_B", "Test_indirect_three_level_C", "Test_indirect_three_level_D", "Test_indirect_three_level_E"]

/-- examples/example_9_indirect_lr_5_level_parser/src/parser.rs: the names of the rule functions -/
def ex9Name : Ex9 → String
  | .r_num => "num"
  | .r_test_lr_num => "test_lr_num"
  | .r_test_indirect_three_level_a => "test_indirect_three_level_a"
  | .r_test_indirect_three_level_b => "test_indirect_three_level_b"
  | .r_test_indirect_three_level_c => "test_indirect_three_level_c"
  | .r_test_indirect_three_level_d => "test_indirect_three_level_d"
  | .r_test_indirect_three_level_e => "test_indirect_three_level_e"
  | .r_grammar => "grammar"

/-- examples/example_10_basic_bench/example_10_basic_bench.dsl:1-3, one string per rule -/
def ex10File : List String := [
  "<rr> = ('1', <rr>)/'1'; # rr ::= \"1\" <rr> / \"1\" #\n",
  "<lr> = (<lr>, '1')/'1'; # lr ::= <lr> \"1\" / \"1\" #\n",
  "<Grammar> = <rr>; #We do not use grammar for this benchmark but we need one for the generation to work. #"]

/-- examples/example_10_basic_bench_parser/src/rules.rs:17-21 -/
def ex10Enum : List String := ["Grammar", "Lr", "Rr"]

/-- examples/example_10_basic_bench_parser/src/parser.rs: the names of the rule functions -/
def ex10Name : Ex10 → String
  | .r_rr => "rr"
  | .r_lr => "lr"
  | .r_grammar => "grammar"

/-- examples/example_11_external_rule_call/example_11_external_rule_call.dsl:1-4, one string per rule -/
def ex11File : List String := [
  "<Alphabet_Lower> Inline =['a'..'z'];\n",
  "<unique_line_matcher> = unique_line_cache((<Alphabet_Lower>/' ')+, '\\n'); # Trivial context sensitive grammar, any lower case line will be matched but only once. #\n",
  "<Grammar> = (<unique_line_matcher>)+;\n"]

/-- examples/example_11_external_rule_call_parser/src/rules.rs:17-20 -/
def ex11Enum : List String := ["Grammar", "Unique_line_matcher"]

/-- examples/example_11_external_rule_call_parser/src/parser.rs: the names of the rule functions -/
def ex11Name : Ex11 → String
  | .r_alphabet_lower => "alphabet_lower"
  | .r_unique_line_matcher => "unique_line_matcher"
  | .r_grammar => "grammar"

/-- examples/json_parser/json.dsl:1-38, one string per rule -/
def jsonFile : List String := [
  "<Alphabet_Upper> Inline = ['A'..'Z'];\n",
  "<Alphabet_Lower> Inline = ['a'..'z'];\n",
  "<onenine> Inline = ['1'..'9'];\n",
  "<digit> Inline = ['0'..'9'];\n",
  "<hex> Inline = ['0'..'9']/['A'..'F'];\n",
  "<Specials> Inline = !(<Alphabet_Upper>/<Alphabet_Lower>/<onenine>/<ws>), <ASCII>;\n",
  "<ASCII> Inline = [0x00..0xFF];\n\n\n",
  "<Grammar> = <json>; #Need a grammar rule for generated code to be correct# \n",
  "<json> = <element>;\n",
  "<value> Inline = <object>/<array>/<sstring>/<number>/<ttrue>/<ffalse>/<null>;\n",
  "<ttrue> = \"true\";\n",
  "<ffalse> = \"false\";\n",
  "<null> = \"null\";\n\n",
  "<object> = '{', ((<member>, (',', <member>)*)/<ws>), '}';\n",
  "<members> Inline = <member>, (',', <member>)*;\n",
  "<member> = <ws>, <sstring>, <ws>, ':', <ws>, <element>, <ws>;\n",
  "<array> = '[', (<elements>/<ws>), ']';\n",
  "<elements> Inline = <element>, (',', <element>)*;\n",
  "<element> Inline = <ws>, <value>, <ws>;\n",
  "<sstring> = '\"', (!('\"'/('\\', '\\', <escape>)/'\\'), <ASCII>)*, '\"';\n",
  "<character> = !('\"'/('\\', '\\', <escape>)/'\\'), <ASCII>; #Cannot handle UTF-8 yet so this isn't quite correct#\n",
  "<escape> = ('\\'/'b'/'f'/'n'/'r'/'t'/('u', <hex>, <hex>, <hex>, <hex>))?;\n",
  "<integer> = '-'?, ((<onenine>, <digit>+)/<digit>);\n\n",
  "<number> = <integer>, <fraction>?, <exponent>?;\n",
  "<fraction> = ('.', <digit>+);\n",
  "<exponent> = (('E'/'e'), <sign>, <digit>+);\n",
  "<sign> = ('+'/'-')?;\n",
  "<ws> Inline = ('\\n'/'\\t'/'\\r'/' ')*; #Can't use code points yet#\n\n",
  "<wsa> = 0x0020;\n",
  "<wsb> = 0x000A;\n",
  "<wsc> = 0x000D;\n",
  "<wsd> = 0x0009;\n"]

end Files
end PP
