import Verif.Model.Gen.Text

/-! Generated by tools/rs2lean.py: the text of the checked-in parsers, one string per line. -/
namespace PP.Texts

/-- parser/src/parser.rs:1-983 -/
def dslParser : List String := [
  "#![allow(non_camel_case_types)] // Generated Code kinda annoying to deal with so w/e\n",
  "#![allow(unused_variables)] // Generated Code also, since everything passes stuff\n",
  "#![allow(unused_imports)] // Generated Code also, since everything passes stuff\n",
  "use crate::*;\n",
  "use std::cell::RefCell;\n",
  "#[allow(dead_code)]\n",
  "pub fn alphabet_upper<T: Context>(\n",
  "    user_state: &RefCell<UserState>,\n",
  "    parent: Key,\n",
  "    context: &RefCell<T>,\n",
  "    source: &Source,\n",
  "    position: u32,\n",
  ") -> (bool, u32) {\n",
  "    // We all love commments\n",
  "    let closure_1 = _ordered_choice_match_range(65, 90);\n",
  "    closure_1(parent, source, position)\n",
  "}\n",
  "#[allow(dead_code)]\n",
  "pub fn alphabet_lower<T: Context>(\n",
  "    user_state: &RefCell<UserState>,\n",
  "    parent: Key,\n",
  "    context: &RefCell<T>,\n",
  "    source: &Source,\n",
  "    position: u32,\n",
  ") -> (bool, u32) {\n",
  "    let closure_1 = _ordered_choice_match_range(97, 122);\n",
  "    closure_1(parent, source, position)\n",
  "}\n",
  "#[allow(dead_code)]\n",
  "pub fn num<T: Context>(\n",
  "    user_state: &RefCell<UserState>,\n",
  "    parent: Key,\n",
  "    context: &RefCell<T>,\n",
  "    source: &Source,\n",
  "    position: u32,\n",
  ") -> (bool, u32) {\n",
  "    let closure_1 = _ordered_choice_match_range(48, 57);\n",
  "    closure_1(parent, source, position)\n",
  "}\n",
  "#[allow(dead_code)]\n",
  "pub fn numnozero<T: Context>(\n",
  "    user_state: &RefCell<UserState>,\n",
  "    parent: Key,\n",
  "    context: &RefCell<T>,\n",
  "    source: &Source,\n",
  "    position: u32,\n",
  ") -> (bool, u32) {\n",
  "    let closure_1 = _ordered_choice_match_range(49, 57);\n",
  "    closure_1(parent, source, position)\n",
  "}\n",
  "#[allow(dead_code)]\n",
  "pub fn hexval<T: Context>(\n",
  "    user_state: &RefCell<UserState>,\n",
  "    parent: Key,\n",
  "    context: &RefCell<T>,\n",
  "    source: &Source,\n",
  "    position: u32,\n",
  ") -> (bool, u32) {\n",
  "    let closure_1 = _ordered_choice_match_range(48, 57);\n",
  "    let closure_2 = _ordered_choice_match_range(65, 70);\n",
  "    let closure_3 = _ordered_choice(&closure_1, &closure_2);\n",
  "    closure_3(parent, source, position)\n",
  "}\n",
  "#[allow(dead_code)]\n",
  "pub fn spaces<T: Context>(\n",
  "    user_state: &RefCell<UserState>,\n",
  "    parent: Key,\n",
  "    context: &RefCell<T>,\n",
  "    source: &Source,\n",
  "    position: u32,\n",
  ") -> (bool, u32) {\n",
  "    let closure_1 = _terminal(b'\\n');\n",
  "    let closure_2 = _terminal(b'\\t');\n",
  "    let closure_3 = _ordered_choice(&closure_1, &closure_2);\n",
  "    let closure_4 = _terminal(b'\\r');\n",
  "    let closure_5 = _ordered_choice(&closure_3, &closure_4);\n",
  "    let closure_6 = _terminal(b' ');\n",
  "    let closure_7 = _ordered_choice(&closure_5, &closure_6);\n",
  "    closure_7(parent, source, position)\n",
  "}\n",
  "#[allow(dead_code)]\n",
  "pub fn specials<T: Context>(\n",
  "    user_state: &RefCell<UserState>,\n",
  "    parent: Key,\n",
  "    context: &RefCell<T>,\n",
  "    source: &Source,\n",
  "    position: u32,\n",
  ") -> (bool, u32) {\n",
  "    let closure_1 = move |parent: Key, source: &Source, position: u32| {\n",
  "        alphabet_upper(user_state, parent, context, source, position)\n",
  "    };\n",
  "    let closure_2 = move |parent: Key, source: &Source, position: u32| {\n",
  "        alphabet_lower(user_state, parent, context, source, position)\n",
  "    };\n",
  "    let closure_3 = _ordered_choice(&closure_1, &closure_2);\n",
  "    let closure_4 = _var_name(user_state, Rules::Num, context, num);\n",
  "    let closure_5 = _ordered_choice(&closure_3, &closure_4);\n",
  "    let closure_6 = move |parent: Key, source: &Source, position: u32| {\n",
  "        spaces(user_state, parent, context, source, position)\n",
  "    };\n",
  "    let closure_7 = _ordered_choice(&closure_5, &closure_6);\n",
  "    let closure_8 = _subexpression(&closure_7);\n",
  "    let closure_9 = _not_predicate(&closure_8);\n",
  "    let closure_10 = _ordered_choice_match_range(0, 255);\n",
  "    let closure_11 = _sequence(&closure_9, &closure_10);\n",
  "    closure_11(parent, source, position)\n",
  "}\n",
  "#[allow(dead_code)]\n",
  "pub fn ascii<T: Context>(\n",
  "    user_state: &RefCell<UserState>,\n",
  "    parent: Key,\n",
  "    context: &RefCell<T>,\n",
  "    source: &Source,\n",
  "    position: u32,\n",
  ") -> (bool, u32) {\n",
  "    let closure_1 = _ordered_choice_match_range(0, 255);\n",
  "    closure_1(parent, source, position)\n",
  "}\n",
  "#[allow(dead_code)]\n",
  "pub fn apostrophe<T: Context>(\n",
  "    user_state: &RefCell<UserState>,\n",
  "    parent: Key,\n",
  "    context: &RefCell<T>,\n",
  "    source: &Source,\n",
  "    position: u32,\n",
  ") -> (bool, u32) {\n",
  "    let closure_1 = _terminal(b'\"');\n",
  "    closure_1(parent, source, position)\n",
  "}\n",
  "#[allow(dead_code)]\n",
  "pub fn quotationmark<T: Context>(\n",
  "    user_state: &RefCell<UserState>,\n",
  "    parent: Key,\n",
  "    context: &RefCell<T>,\n",
  "    source: &Source,\n",
  "    position: u32,\n",
  ") -> (bool, u32) {\n",
  "    let closure_1 = _terminal(b'\\'');\n",
  "    closure_1(parent, source, position)\n",
  "}\n",
  "#[allow(dead_code)]\n",
  "pub fn left_angle_bracket<T: Context>(\n",
  "    user_state: &RefCell<UserState>,\n",
  "    parent: Key,\n",
  "    context: &RefCell<T>,\n",
  "    source: &Source,\n",
  "    position: u32,\n",
  ") -> (bool, u32) {\n",
  "    let closure_1 = _terminal(b'<');\n",
  "    closure_1(parent, source, position)\n",
  "}\n",
  "#[allow(dead_code)]\n",
  "pub fn right_angle_bracket<T: Context>(\n",
  "    user_state: &RefCell<UserState>,\n",
  "    parent: Key,\n",
  "    context: &RefCell<T>,\n",
  "    source: &Source,\n",
  "    position: u32,\n",
  ") -> (bool, u32) {\n",
  "    let closure_1 = _terminal(b'>');\n",
  "    closure_1(parent, source, position)\n",
  "}\n",
  "#[allow(dead_code)]\n",
  "pub fn left_bracket<T: Context>(\n",
  "    user_state: &RefCell<UserState>,\n",
  "    parent: Key,\n",
  "    context: &RefCell<T>,\n",
  "    source: &Source,\n",
  "    position: u32,\n",
  ") -> (bool, u32) {\n",
  "    let closure_1 = _terminal(b'(');\n",
  "    closure_1(parent, source, position)\n",
  "}\n",
  "#[allow(dead_code)]\n",
  "pub fn right_bracket<T: Context>(\n",
  "    user_state: &RefCell<UserState>,\n",
  "    parent: Key,\n",
  "    context: &RefCell<T>,\n",
  "    source: &Source,\n",
  "    position: u32,\n",
  ") -> (bool, u32) {\n",
  "    let closure_1 = _terminal(b')');\n",
  "    closure_1(parent, source, position)\n",
  "}\n",
  "#[allow(dead_code)]\n",
  "pub fn assignment<T: Context>(\n",
  "    user_state: &RefCell<UserState>,\n",
  "    parent: Key,\n",
  "    context: &RefCell<T>,\n",
  "    source: &Source,\n",
  "    position: u32,\n",
  ") -> (bool, u32) {\n",
  "    let closure_1 = _terminal(b'=');\n",
  "    closure_1(parent, source, position)\n",
  "}\n",
  "#[allow(dead_code)]\n",
  "pub fn end_rule<T: Context>(\n",
  "    user_state: &RefCell<UserState>,\n",
  "    parent: Key,\n",
  "    context: &RefCell<T>,\n",
  "    source: &Source,\n",
  "    position: u32,\n",
  ") -> (bool, u32) {\n",
  "    let closure_1 = _terminal(b';');\n",
  "    closure_1(parent, source, position)\n",
  "}\n",
  "#[allow(dead_code)]\n",
  "pub fn ampersand<T: Context>(\n",
  "    user_state: &RefCell<UserState>,\n",
  "    parent: Key,\n",
  "    context: &RefCell<T>,\n",
  "    source: &Source,\n",
  "    position: u32,\n",
  ") -> (bool, u32) {\n",
  "    let closure_1 = _terminal(b'&');\n",
  "    closure_1(parent, source, position)\n",
  "}\n",
  "#[allow(dead_code)]\n",
  "pub fn exclamation_mark<T: Context>(\n",
  "    user_state: &RefCell<UserState>,\n",
  "    parent: Key,\n",
  "    context: &RefCell<T>,\n",
  "    source: &Source,\n",
  "    position: u32,\n",
  ") -> (bool, u32) {\n",
  "    let closure_1 = _terminal(b'!');\n",
  "    closure_1(parent, source, position)\n",
  "}\n",
  "#[allow(dead_code)]\n",
  "pub fn plus<T: Context>(\n",
  "    user_state: &RefCell<UserState>,\n",
  "    parent: Key,\n",
  "    context: &RefCell<T>,\n",
  "    source: &Source,\n",
  "    position: u32,\n",
  ") -> (bool, u32) {\n",
  "    let closure_1 = _terminal(b'+');\n",
  "    closure_1(parent, source, position)\n",
  "}\n",
  "#[allow(dead_code)]\n",
  "pub fn star<T: Context>(\n",
  "    user_state: &RefCell<UserState>,\n",
  "    parent: Key,\n",
  "    context: &RefCell<T>,\n",
  "    source: &Source,\n",
  "    position: u32,\n",
  ") -> (bool, u32) {\n",
  "    let closure_1 = _terminal(b'*');\n",
  "    closure_1(parent, source, position)\n",
  "}\n",
  "#[allow(dead_code)]\n",
  "pub fn question_mark<T: Context>(\n",
  "    user_state: &RefCell<UserState>,\n",
  "    parent: Key,\n",
  "    context: &RefCell<T>,\n",
  "    source: &Source,\n",
  "    position: u32,\n",
  ") -> (bool, u32) {\n",
  "    let closure_1 = _terminal(b'?');\n",
  "    closure_1(parent, source, position)\n",
  "}\n",
  "#[allow(dead_code)]\n",
  "pub fn comma<T: Context>(\n",
  "    user_state: &RefCell<UserState>,\n",
  "    parent: Key,\n",
  "    context: &RefCell<T>,\n",
  "    source: &Source,\n",
  "    position: u32,\n",
  ") -> (bool, u32) {\n",
  "    let closure_1 = _terminal(b',');\n",
  "    closure_1(parent, source, position)\n",
  "}\n",
  "#[allow(dead_code)]\n",
  "pub fn newline<T: Context>(\n",
  "    user_state: &RefCell<UserState>,\n",
  "    parent: Key,\n",
  "    context: &RefCell<T>,\n",
  "    source: &Source,\n",
  "    position: u32,\n",
  ") -> (bool, u32) {\n",
  "    let closure_1 = _terminal(b'\\n');\n",
  "    closure_1(parent, source, position)\n",
  "}\n",
  "#[allow(dead_code)]\n",
  "pub fn backslash<T: Context>(\n",
  "    user_state: &RefCell<UserState>,\n",
  "    parent: Key,\n",
  "    context: &RefCell<T>,\n",
  "    source: &Source,\n",
  "    position: u32,\n",
  ") -> (bool, u32) {\n",
  "    let closure_1 = _terminal(b'/');\n",
  "    closure_1(parent, source, position)\n",
  "}\n",
  "#[allow(dead_code)]\n",
  "pub fn var_name<T: Context>(\n",
  "    user_state: &RefCell<UserState>,\n",
  "    parent: Key,\n",
  "    context: &RefCell<T>,\n",
  "    source: &Source,\n",
  "    position: u32,\n",
  ") -> (bool, u32) {\n",
  "    let closure_1 = move |parent: Key, source: &Source, position: u32| {\n",
  "        alphabet_lower(user_state, parent, context, source, position)\n",
  "    };\n",
  "    let closure_2 = move |parent: Key, source: &Source, position: u32| {\n",
  "        alphabet_upper(user_state, parent, context, source, position)\n",
  "    };\n",
  "    let closure_3 = _ordered_choice(&closure_1, &closure_2);\n",
  "    let closure_4 = _subexpression(&closure_3);\n",
  "    let closure_5 = move |parent: Key, source: &Source, position: u32| {\n",
  "        alphabet_lower(user_state, parent, context, source, position)\n",
  "    };\n",
  "    let closure_6 = move |parent: Key, source: &Source, position: u32| {\n",
  "        alphabet_upper(user_state, parent, context, source, position)\n",
  "    };\n",
  "    let closure_7 = _ordered_choice(&closure_5, &closure_6);\n",
  "    let closure_8 = _terminal(b'_');\n",
  "    let closure_9 = _ordered_choice(&closure_7, &closure_8);\n",
  "    let closure_10 = _subexpression(&closure_9);\n",
  "    let closure_11 = _zero_or_more(&closure_10);\n",
  "    let closure_12 = _sequence(&closure_4, &closure_11);\n",
  "    closure_12(parent, source, position)\n",
  "}\n",
  "#[allow(dead_code)]\n",
  "pub fn var_name_decl<T: Context>(\n",
  "    user_state: &RefCell<UserState>,\n",
  "    parent: Key,\n",
  "    context: &RefCell<T>,\n",
  "    source: &Source,\n",
  "    position: u32,\n",
  ") -> (bool, u32) {\n",
  "    let closure_1 = move |parent: Key, source: &Source, position: u32| {\n",
  "        left_angle_bracket(user_state, parent, context, source, position)\n",
  "    };\n",
  "    let closure_2 = move |parent: Key, source: &Source, position: u32| {\n",
  "        var_name(user_state, parent, context, source, position)\n",
  "    };\n",
  "    let closure_3 = _sequence(&closure_1, &closure_2);\n",
  "    let closure_4 = move |parent: Key, source: &Source, position: u32| {\n",
  "        right_angle_bracket(user_state, parent, context, source, position)\n",
  "    };\n",
  "    let closure_5 = _sequence(&closure_3, &closure_4);\n",
  "    closure_5(parent, source, position)\n",
  "}\n",
  "#[allow(dead_code)]\n",
  "pub fn var_name_ref<T: Context>(\n",
  "    user_state: &RefCell<UserState>,\n",
  "    parent: Key,\n",
  "    context: &RefCell<T>,\n",
  "    source: &Source,\n",
  "    position: u32,\n",
  ") -> (bool, u32) {\n",
  "    let closure_1 = move |parent: Key, source: &Source, position: u32| {\n",
  "        left_angle_bracket(user_state, parent, context, source, position)\n",
  "    };\n",
  "    let closure_2 = move |parent: Key, source: &Source, position: u32| {\n",
  "        var_name(user_state, parent, context, source, position)\n",
  "    };\n",
  "    let closure_3 = _sequence(&closure_1, &closure_2);\n",
  "    let closure_4 = move |parent: Key, source: &Source, position: u32| {\n",
  "        right_angle_bracket(user_state, parent, context, source, position)\n",
  "    };\n",
  "    let closure_5 = _sequence(&closure_3, &closure_4);\n",
  "    closure_5(parent, source, position)\n",
  "}\n",
  "#[allow(dead_code)]\n",
  "pub fn hex<T: Context>(\n",
  "    user_state: &RefCell<UserState>,\n",
  "    parent: Key,\n",
  "    context: &RefCell<T>,\n",
  "    source: &Source,\n",
  "    position: u32,\n",
  ") -> (bool, u32) {\n",
  "    // Replace with custom code\n",
  "    let closure_1 = _terminal(b'0');\n",
  "    let closure_2 = _terminal(b'x');\n",
  "    let closure_3 = _sequence(&closure_1, &closure_2);\n",
  "    let closure_4 = _var_name(user_state, Rules::HexVal, context, hexval);\n",
  "    let closure_5 = _one_or_more(&closure_4);\n",
  "    let closure_6 = _sequence(&closure_3, &closure_5);\n",
  "    closure_6(parent, source, position)\n",
  "}\n",
  "#[allow(dead_code)]\n",
  "pub fn integer<T: Context>(\n",
  "    user_state: &RefCell<UserState>,\n",
  "    parent: Key,\n",
  "    context: &RefCell<T>,\n",
  "    source: &Source,\n",
  "    position: u32,\n",
  ") -> (bool, u32) {\n",
  "    // No negative values since that is meaningless in this context\n",
  "    let closure_1 = _var_name(user_state, Rules::NumNoZero, context, numnozero);\n",
  "    let closure_2 = _var_name(user_state, Rules::Num, context, num);\n",
  "    let closure_3 = _zero_or_more(&closure_2);\n",
  "    let closure_4 = _sequence(&closure_1, &closure_3);\n",
  "    closure_4(parent, source, position)\n",
  "}\n",
  "#[allow(dead_code)]\n",
  "pub fn orderedchoicematchrange<T: Context>(\n",
  "    user_state: &RefCell<UserState>,\n",
  "    parent: Key,\n",
  "    context: &RefCell<T>,\n",
  "    source: &Source,\n",
  "    position: u32,\n",
  ") -> (bool, u32) {\n",
  "    let closure_1 = move |parent: Key, source: &Source, position: u32| {\n",
  "        whitespace(user_state, parent, context, source, position)\n",
  "    };\n",
  "    let closure_2 = _terminal(b'[');\n",
  "    let closure_3 = _sequence(&closure_1, &closure_2);\n",
  "    let closure_4 = move |parent: Key, source: &Source, position: u32| {\n",
  "        whitespace(user_state, parent, context, source, position)\n",
  "    };\n",
  "    let closure_5 = _sequence(&closure_3, &closure_4);\n",
  "    let closure_6 = _var_name(user_state, Rules::Terminal, context, terminal);\n",
  "    let closure_7 = _var_name(user_state, Rules::Integer, context, integer);\n",
  "    let closure_8 = _ordered_choice(&closure_6, &closure_7);\n",
  "    let closure_9 = _var_name(user_state, Rules::Hex, context, hex);\n",
  "    let closure_10 = _ordered_choice(&closure_8, &closure_9);\n",
  "    let closure_11 = _subexpression(&closure_10);\n",
  "    let closure_12 = _sequence(&closure_5, &closure_11);\n",
  "    let closure_13 = _terminal(b'.');\n",
  "    let closure_14 = _sequence(&closure_12, &closure_13);\n",
  "    let closure_15 = _terminal(b'.');\n",
  "    let closure_16 = _sequence(&closure_14, &closure_15);\n",
  "    let closure_17 = _var_name(user_state, Rules::Terminal, context, terminal);\n",
  "    let closure_18 = _var_name(user_state, Rules::Integer, context, integer);\n",
  "    let closure_19 = _ordered_choice(&closure_17, &closure_18);\n",
  "    let closure_20 = _var_name(user_state, Rules::Hex, context, hex);\n",
  "    let closure_21 = _ordered_choice(&closure_19, &closure_20);\n",
  "    let closure_22 = _subexpression(&closure_21);\n",
  "    let closure_23 = _sequence(&closure_16, &closure_22);\n",
  "    let closure_24 = move |parent: Key, source: &Source, position: u32| {\n",
  "        whitespace(user_state, parent, context, source, position)\n",
  "    };\n",
  "    let closure_25 = _sequence(&closure_23, &closure_24);\n",
  "    let closure_26 = _terminal(b']');\n",
  "    let closure_27 = _sequence(&closure_25, &closure_26);\n",
  "    let closure_28 = move |parent: Key, source: &Source, position: u32| {\n",
  "        whitespace(user_state, parent, context, source, position)\n",
  "    };\n",
  "    let closure_29 = _sequence(&closure_27, &closure_28);\n",
  "    closure_29(parent, source, position)\n",
  "}\n",
  "#[allow(dead_code)]\n",
  "pub fn subexpression<T: Context>(\n",
  "    user_state: &RefCell<UserState>,\n",
  "    parent: Key,\n",
  "    context: &RefCell<T>,\n",
  "    source: &Source,\n",
  "    position: u32,\n",
  ") -> (bool, u32) {\n",
  "    let closure_1 = move |parent: Key, source: &Source, position: u32| {\n",
  "        left_bracket(user_state, parent, context, source, position)\n",
  "    };\n",
  "    let closure_2 = _var_name(user_state, Rules::RHS, context, rhs);\n",
  "    let closure_3 = _sequence(&closure_1, &closure_2);\n",
  "    let closure_4 = move |parent: Key, source: &Source, position: u32| {\n",
  "        right_bracket(user_state, parent, context, source, position)\n",
  "    };\n",
  "    let closure_5 = _sequence(&closure_3, &closure_4);\n",
  "    closure_5(parent, source, position)\n",
  "}\n",
  "#[allow(dead_code)]\n",
  "pub fn hooked_call<T: Context>(\n",
  "    user_state: &RefCell<UserState>,\n",
  "    parent: Key,\n",
  "    context: &RefCell<T>,\n",
  "    source: &Source,\n",
  "    position: u32,\n",
  ") -> (bool, u32) {\n",
  "    //  Allows for handling context senstive grammars by calling out to handwritten code.\n",
  "    let closure_1 = move |parent: Key, source: &Source, position: u32| {\n",
  "        var_name(user_state, parent, context, source, position)\n",
  "    };\n",
  "    let closure_2 = move |parent: Key, source: &Source, position: u32| {\n",
  "        left_bracket(user_state, parent, context, source, position)\n",
  "    };\n",
  "    let closure_3 = _sequence(&closure_1, &closure_2);\n",
  "    let closure_4 = _var_name(user_state, Rules::RHS, context, rhs);\n",
  "    let closure_5 = _sequence(&closure_3, &closure_4);\n",
  "    let closure_6 = move |parent: Key, source: &Source, position: u32| {\n",
  "        right_bracket(user_state, parent, context, source, position)\n",
  "    };\n",
  "    let closure_7 = _sequence(&closure_5, &closure_6);\n",
  "    closure_7(parent, source, position)\n",
  "}\n",
  "#[allow(dead_code)]\n",
  "pub fn epsilon<T: Context>(\n",
  "    user_state: &RefCell<UserState>,\n",
  "    parent: Key,\n",
  "    context: &RefCell<T>,\n",
  "    source: &Source,\n",
  "    position: u32,\n",
  ") -> (bool, u32) {\n",
  "    let closure_1 = move |parent: Key, source: &Source, position: u32| {\n",
  "        quotationmark(user_state, parent, context, source, position)\n",
  "    };\n",
  "    let closure_2 = move |parent: Key, source: &Source, position: u32| {\n",
  "        quotationmark(user_state, parent, context, source, position)\n",
  "    };\n",
  "    let closure_3 = _sequence(&closure_1, &closure_2);\n",
  "    closure_3(parent, source, position)\n",
  "}\n",
  "#[allow(dead_code)]\n",
  "pub fn stringterminal<T: Context>(\n",
  "    user_state: &RefCell<UserState>,\n",
  "    parent: Key,\n",
  "    context: &RefCell<T>,\n",
  "    source: &Source,\n",
  "    position: u32,\n",
  ") -> (bool, u32) {\n",
  "    // Multibyte matches essentially\n",
  "    let closure_1 = move |parent: Key, source: &Source, position: u32| {\n",
  "        apostrophe(user_state, parent, context, source, position)\n",
  "    };\n",
  "    let closure_2 = move |parent: Key, source: &Source, position: u32| {\n",
  "        apostrophe(user_state, parent, context, source, position)\n",
  "    };\n",
  "    let closure_3 = _not_predicate(&closure_2);\n",
  "    let closure_4 = _sequence(&closure_1, &closure_3);\n",
  "    let closure_5 = _var_name(user_state, Rules::ASCII, context, ascii);\n",
  "    let closure_6 = move |parent: Key, source: &Source, position: u32| {\n",
  "        apostrophe(user_state, parent, context, source, position)\n",
  "    };\n",
  "    let closure_7 = _not_predicate(&closure_6);\n",
  "    let closure_8 = _var_name(user_state, Rules::ASCII, context, ascii);\n",
  "    let closure_9 = _sequence(&closure_7, &closure_8);\n",
  "    let closure_10 = _subexpression(&closure_9);\n",
  "    let closure_11 = _one_or_more(&closure_10);\n",
  "    let closure_12 = _sequence(&closure_5, &closure_11);\n",
  "    let closure_13 = _subexpression(&closure_12);\n",
  "    let closure_14 = _sequence(&closure_4, &closure_13);\n",
  "    let closure_15 = move |parent: Key, source: &Source, position: u32| {\n",
  "        apostrophe(user_state, parent, context, source, position)\n",
  "    };\n",
  "    let closure_16 = _sequence(&closure_14, &closure_15);\n",
  "    let closure_17 = _subexpression(&closure_16);\n",
  "    let closure_18 = _var_name(user_state, Rules::Hex, context, hex);\n",
  "    let closure_19 = _ordered_choice(&closure_17, &closure_18);\n",
  "    let closure_20 = _var_name(user_state, Rules::Integer, context, integer);\n",
  "    let closure_21 = _ordered_choice(&closure_19, &closure_20);\n",
  "    closure_21(parent, source, position)\n",
  "}\n",
  "#[allow(dead_code)]\n",
  "pub fn terminal<T: Context>(\n",
  "    user_state: &RefCell<UserState>,\n",
  "    parent: Key,\n",
  "    context: &RefCell<T>,\n",
  "    source: &Source,\n",
  "    position: u32,\n",
  ") -> (bool, u32) {\n",
  "    let closure_1 = move |parent: Key, source: &Source, position: u32| {\n",
  "        quotationmark(user_state, parent, context, source, position)\n",
  "    };\n",
  "    let closure_2 = _var_name(user_state, Rules::ASCII, context, ascii);\n",
  "    let closure_3 = _sequence(&closure_1, &closure_2);\n",
  "    let closure_4 = move |parent: Key, source: &Source, position: u32| {\n",
  "        quotationmark(user_state, parent, context, source, position)\n",
  "    };\n",
  "    let closure_5 = _sequence(&closure_3, &closure_4);\n",
  "    let closure_6 = _subexpression(&closure_5);\n",
  "    let closure_7 = move |parent: Key, source: &Source, position: u32| {\n",
  "        quotationmark(user_state, parent, context, source, position)\n",
  "    };\n",
  "    let closure_8 = _terminal(b'\\\\');\n",
  "    let closure_9 = _sequence(&closure_7, &closure_8);\n",
  "    let closure_10 = _terminal(b'n');\n",
  "    let closure_11 = _terminal(b'r');\n",
  "    let closure_12 = _ordered_choice(&closure_10, &closure_11);\n",
  "    let closure_13 = _terminal(b't');\n",
  "    let closure_14 = _ordered_choice(&closure_12, &closure_13);\n",
  "    let closure_15 = _subexpression(&closure_14);\n",
  "    let closure_16 = _sequence(&closure_9, &closure_15);\n",
  "    let closure_17 = move |parent: Key, source: &Source, position: u32| {\n",
  "        quotationmark(user_state, parent, context, source, position)\n",
  "    };\n",
  "    let closure_18 = _sequence(&closure_16, &closure_17);\n",
  "    let closure_19 = _subexpression(&closure_18);\n",
  "    let closure_20 = _ordered_choice(&closure_6, &closure_19);\n",
  "    let closure_21 = _var_name(user_state, Rules::Epsilon, context, epsilon);\n",
  "    let closure_22 = _ordered_choice(&closure_20, &closure_21);\n",
  "    closure_22(parent, source, position)\n",
  "}\n",
  "#[allow(dead_code)]\n",
  "pub fn nucleus<T: Context>(\n",
  "    user_state: &RefCell<UserState>,\n",
  "    parent: Key,\n",
  "    context: &RefCell<T>,\n",
  "    source: &Source,\n",
  "    position: u32,\n",
  ") -> (bool, u32) {\n",
  "    let closure_1 = _var_name(\n",
  "        user_state,\n",
  "        Rules::OrderedChoiceMatchRange,\n",
  "        context,\n",
  "        orderedchoicematchrange,\n",
  "    );\n",
  "    let closure_2 = _var_name(user_state, Rules::Hooked_Call, context, hooked_call);\n",
  "    let closure_3 = _ordered_choice(&closure_1, &closure_2);\n",
  "    let closure_4 = _var_name(user_state, Rules::Subexpression, context, subexpression);\n",
  "    let closure_5 = _ordered_choice(&closure_3, &closure_4);\n",
  "    let closure_6 = _var_name(user_state, Rules::Terminal, context, terminal);\n",
  "    let closure_7 = _ordered_choice(&closure_5, &closure_6);\n",
  "    let closure_8 = _var_name(user_state, Rules::StringTerminal, context, stringterminal);\n",
  "    let closure_9 = _ordered_choice(&closure_7, &closure_8);\n",
  "    let closure_10 = _var_name(user_state, Rules::Var_Name_Ref, context, var_name_ref);\n",
  "    let closure_11 = _ordered_choice(&closure_9, &closure_10);\n",
  "    let closure_12 = _subexpression(&closure_11);\n",
  "    let closure_13 = move |parent: Key, source: &Source, position: u32| {\n",
  "        whitespace(user_state, parent, context, source, position)\n",
  "    };\n",
  "    let closure_14 = _sequence(&closure_12, &closure_13);\n",
  "    closure_14(parent, source, position)\n",
  "}\n",
  "#[allow(dead_code)]\n",
  "pub fn atom<T: Context>(\n",
  "    user_state: &RefCell<UserState>,\n",
  "    parent: Key,\n",
  "    context: &RefCell<T>,\n",
  "    source: &Source,\n",
  "    position: u32,\n",
  ") -> (bool, u32) {\n",
  "    let closure_1 = _var_name(user_state, Rules::And_Predicate, context, and_predicate);\n",
  "    let closure_2 = _var_name(user_state, Rules::Not_Predicate, context, not_predicate);\n",
  "    let closure_3 = _ordered_choice(&closure_1, &closure_2);\n",
  "    let closure_4 = _var_name(user_state, Rules::One_Or_More, context, one_or_more);\n",
  "    let closure_5 = _ordered_choice(&closure_3, &closure_4);\n",
  "    let closure_6 = _var_name(user_state, Rules::Zero_Or_More, context, zero_or_more);\n",
  "    let closure_7 = _ordered_choice(&closure_5, &closure_6);\n",
  "    let closure_8 = _var_name(user_state, Rules::Optional, context, optional);\n",
  "    let closure_9 = _ordered_choice(&closure_7, &closure_8);\n",
  "    let closure_10 = _var_name(user_state, Rules::Nucleus, context, nucleus);\n",
  "    let closure_11 = _ordered_choice(&closure_9, &closure_10);\n",
  "    let closure_12 = _subexpression(&closure_11);\n",
  "    let closure_13 = move |parent: Key, source: &Source, position: u32| {\n",
  "        whitespace(user_state, parent, context, source, position)\n",
  "    };\n",
  "    let closure_14 = _sequence(&closure_12, &closure_13);\n",
  "    closure_14(parent, source, position)\n",
  "}\n",
  "#[allow(dead_code)]\n",
  "pub fn and_predicate<T: Context>(\n",
  "    user_state: &RefCell<UserState>,\n",
  "    parent: Key,\n",
  "    context: &RefCell<T>,\n",
  "    source: &Source,\n",
  "    position: u32,\n",
  ") -> (bool, u32) {\n",
  "    let closure_1 = move |parent: Key, source: &Source, position: u32| {\n",
  "        ampersand(user_state, parent, context, source, position)\n",
  "    };\n",
  "    let closure_2 = _var_name(user_state, Rules::Nucleus, context, nucleus);\n",
  "    let closure_3 = _sequence(&closure_1, &closure_2);\n",
  "    closure_3(parent, source, position)\n",
  "}\n",
  "#[allow(dead_code)]\n",
  "pub fn not_predicate<T: Context>(\n",
  "    user_state: &RefCell<UserState>,\n",
  "    parent: Key,\n",
  "    context: &RefCell<T>,\n",
  "    source: &Source,\n",
  "    position: u32,\n",
  ") -> (bool, u32) {\n",
  "    let closure_1 = move |parent: Key, source: &Source, position: u32| {\n",
  "        exclamation_mark(user_state, parent, context, source, position)\n",
  "    };\n",
  "    let closure_2 = _var_name(user_state, Rules::Nucleus, context, nucleus);\n",
  "    let closure_3 = _sequence(&closure_1, &closure_2);\n",
  "    closure_3(parent, source, position)\n",
  "}\n",
  "#[allow(dead_code)]\n",
  "pub fn sequence<T: Context>(\n",
  "    user_state: &RefCell<UserState>,\n",
  "    parent: Key,\n",
  "    context: &RefCell<T>,\n",
  "    source: &Source,\n",
  "    position: u32,\n",
  ") -> (bool, u32) {\n",
  "    let closure_1 = _var_name(user_state, Rules::Atom, context, atom);\n",
  "    let closure_2 = move |parent: Key, source: &Source, position: u32| {\n",
  "        whitespace(user_state, parent, context, source, position)\n",
  "    };\n",
  "    let closure_3 = _sequence(&closure_1, &closure_2);\n",
  "    let closure_4 = move |parent: Key, source: &Source, position: u32| {\n",
  "        comma(user_state, parent, context, source, position)\n",
  "    };\n",
  "    let closure_5 = _sequence(&closure_3, &closure_4);\n",
  "    let closure_6 = move |parent: Key, source: &Source, position: u32| {\n",
  "        whitespace(user_state, parent, context, source, position)\n",
  "    };\n",
  "    let closure_7 = _sequence(&closure_5, &closure_6);\n",
  "    let closure_8 = _var_name(user_state, Rules::Atom, context, atom);\n",
  "    let closure_9 = _sequence(&closure_7, &closure_8);\n",
  "    let closure_10 = move |parent: Key, source: &Source, position: u32| {\n",
  "        comma(user_state, parent, context, source, position)\n",
  "    };\n",
  "    let closure_11 = move |parent: Key, source: &Source, position: u32| {\n",
  "        whitespace(user_state, parent, context, source, position)\n",
  "    };\n",
  "    let closure_12 = _sequence(&closure_10, &closure_11);\n",
  "    let closure_13 = _var_name(user_state, Rules::Atom, context, atom);\n",
  "    let closure_14 = _sequence(&closure_12, &closure_13);\n",
  "    let closure_15 = _subexpression(&closure_14);\n",
  "    let closure_16 = _zero_or_more(&closure_15);\n",
  "    let closure_17 = _sequence(&closure_9, &closure_16);\n",
  "    closure_17(parent, source, position)\n",
  "}\n",
  "#[allow(dead_code)]\n",
  "pub fn ordered_choice<T: Context>(\n",
  "    user_state: &RefCell<UserState>,\n",
  "    parent: Key,\n",
  "    context: &RefCell<T>,\n",
  "    source: &Source,\n",
  "    position: u32,\n",
  ") -> (bool, u32) {\n",
  "    let closure_1 = _var_name(user_state, Rules::Atom, context, atom);\n",
  "    let closure_2 = move |parent: Key, source: &Source, position: u32| {\n",
  "        whitespace(user_state, parent, context, source, position)\n",
  "    };\n",
  "    let closure_3 = _sequence(&closure_1, &closure_2);\n",
  "    let closure_4 = move |parent: Key, source: &Source, position: u32| {\n",
  "        backslash(user_state, parent, context, source, position)\n",
  "    };\n",
  "    let closure_5 = _sequence(&closure_3, &closure_4);\n",
  "    let closure_6 = move |parent: Key, source: &Source, position: u32| {\n",
  "        whitespace(user_state, parent, context, source, position)\n",
  "    };\n",
  "    let closure_7 = _sequence(&closure_5, &closure_6);\n",
  "    let closure_8 = _var_name(user_state, Rules::Atom, context, atom);\n",
  "    let closure_9 = _sequence(&closure_7, &closure_8);\n",
  "    let closure_10 = move |parent: Key, source: &Source, position: u32| {\n",
  "        whitespace(user_state, parent, context, source, position)\n",
  "    };\n",
  "    let closure_11 = move |parent: Key, source: &Source, position: u32| {\n",
  "        backslash(user_state, parent, context, source, position)\n",
  "    };\n",
  "    let closure_12 = _sequence(&closure_10, &closure_11);\n",
  "    let closure_13 = move |parent: Key, source: &Source, position: u32| {\n",
  "        whitespace(user_state, parent, context, source, position)\n",
  "    };\n",
  "    let closure_14 = _sequence(&closure_12, &closure_13);\n",
  "    let closure_15 = _var_name(user_state, Rules::Atom, context, atom);\n",
  "    let closure_16 = _sequence(&closure_14, &closure_15);\n",
  "    let closure_17 = _subexpression(&closure_16);\n",
  "    let closure_18 = _zero_or_more(&closure_17);\n",
  "    let closure_19 = _sequence(&closure_9, &closure_18);\n",
  "    closure_19(parent, source, position)\n",
  "}\n",
  "#[allow(dead_code)]\n",
  "pub fn one_or_more<T: Context>(\n",
  "    user_state: &RefCell<UserState>,\n",
  "    parent: Key,\n",
  "    context: &RefCell<T>,\n",
  "    source: &Source,\n",
  "    position: u32,\n",
  ") -> (bool, u32) {\n",
  "    let closure_1 = _var_name(user_state, Rules::Nucleus, context, nucleus);\n",
  "    let closure_2 = move |parent: Key, source: &Source, position: u32| {\n",
  "        whitespace(user_state, parent, context, source, position)\n",
  "    };\n",
  "    let closure_3 = _sequence(&closure_1, &closure_2);\n",
  "    let closure_4 = move |parent: Key, source: &Source, position: u32| {\n",
  "        plus(user_state, parent, context, source, position)\n",
  "    };\n",
  "    let closure_5 = _sequence(&closure_3, &closure_4);\n",
  "    closure_5(parent, source, position)\n",
  "}\n",
  "#[allow(dead_code)]\n",
  "pub fn zero_or_more<T: Context>(\n",
  "    user_state: &RefCell<UserState>,\n",
  "    parent: Key,\n",
  "    context: &RefCell<T>,\n",
  "    source: &Source,\n",
  "    position: u32,\n",
  ") -> (bool, u32) {\n",
  "    let closure_1 = _var_name(user_state, Rules::Nucleus, context, nucleus);\n",
  "    let closure_2 = move |parent: Key, source: &Source, position: u32| {\n",
  "        whitespace(user_state, parent, context, source, position)\n",
  "    };\n",
  "    let closure_3 = _sequence(&closure_1, &closure_2);\n",
  "    let closure_4 = move |parent: Key, source: &Source, position: u32| {\n",
  "        star(user_state, parent, context, source, position)\n",
  "    };\n",
  "    let closure_5 = _sequence(&closure_3, &closure_4);\n",
  "    closure_5(parent, source, position)\n",
  "}\n",
  "#[allow(dead_code)]\n",
  "pub fn optional<T: Context>(\n",
  "    user_state: &RefCell<UserState>,\n",
  "    parent: Key,\n",
  "    context: &RefCell<T>,\n",
  "    source: &Source,\n",
  "    position: u32,\n",
  ") -> (bool, u32) {\n",
  "    let closure_1 = _var_name(user_state, Rules::Nucleus, context, nucleus);\n",
  "    let closure_2 = move |parent: Key, source: &Source, position: u32| {\n",
  "        whitespace(user_state, parent, context, source, position)\n",
  "    };\n",
  "    let closure_3 = _sequence(&closure_1, &closure_2);\n",
  "    let closure_4 = move |parent: Key, source: &Source, position: u32| {\n",
  "        question_mark(user_state, parent, context, source, position)\n",
  "    };\n",
  "    let closure_5 = _sequence(&closure_3, &closure_4);\n",
  "    closure_5(parent, source, position)\n",
  "}\n",
  "#[allow(dead_code)]\n",
  "pub fn whitespace<T: Context>(\n",
  "    user_state: &RefCell<UserState>,\n",
  "    parent: Key,\n",
  "    context: &RefCell<T>,\n",
  "    source: &Source,\n",
  "    position: u32,\n",
  ") -> (bool, u32) {\n",
  "    let closure_1 = _terminal(b' ');\n",
  "    let closure_2 = _terminal(b'\\n');\n",
  "    let closure_3 = _ordered_choice(&closure_1, &closure_2);\n",
  "    let closure_4 = _terminal(b'\\r');\n",
  "    let closure_5 = _ordered_choice(&closure_3, &closure_4);\n",
  "    let closure_6 = _terminal(b'\\t');\n",
  "    let closure_7 = _ordered_choice(&closure_5, &closure_6);\n",
  "    let closure_8 = _subexpression(&closure_7);\n",
  "    let closure_9 = _zero_or_more(&closure_8);\n",
  "    closure_9(parent, source, position)\n",
  "}\n",
  "#[allow(dead_code)]\n",
  "pub fn rhs<T: Context>(\n",
  "    user_state: &RefCell<UserState>,\n",
  "    parent: Key,\n",
  "    context: &RefCell<T>,\n",
  "    source: &Source,\n",
  "    position: u32,\n",
  ") -> (bool, u32) {\n",
  "    let closure_1 = move |parent: Key, source: &Source, position: u32| {\n",
  "        whitespace(user_state, parent, context, source, position)\n",
  "    };\n",
  "    let closure_2 = _var_name(user_state, Rules::Sequence, context, sequence);\n",
  "    let closure_3 = _var_name(user_state, Rules::Ordered_Choice, context, ordered_choice);\n",
  "    let closure_4 = _ordered_choice(&closure_2, &closure_3);\n",
  "    let closure_5 = _var_name(user_state, Rules::Atom, context, atom);\n",
  "    let closure_6 = _ordered_choice(&closure_4, &closure_5);\n",
  "    let closure_7 = _subexpression(&closure_6);\n",
  "    let closure_8 = _sequence(&closure_1, &closure_7);\n",
  "    closure_8(parent, source, position)\n",
  "}\n",
  "#[allow(dead_code)]\n",
  "pub fn lhs<T: Context>(\n",
  "    user_state: &RefCell<UserState>,\n",
  "    parent: Key,\n",
  "    context: &RefCell<T>,\n",
  "    source: &Source,\n",
  "    position: u32,\n",
  ") -> (bool, u32) {\n",
  "    let closure_1 = _var_name(user_state, Rules::Var_Name_Decl, context, var_name_decl);\n",
  "    let closure_2 = move |parent: Key, source: &Source, position: u32| {\n",
  "        whitespace(user_state, parent, context, source, position)\n",
  "    };\n",
  "    let closure_3 = _var_name(\n",
  "        user_state,\n",
  "        Rules::Semantic_Instructions,\n",
  "        context,\n",
  "        semantic_instructions,\n",
  "    );\n",
  "    let closure_4 = _sequence(&closure_2, &closure_3);\n",
  "    let closure_5 = move |parent: Key, source: &Source, position: u32| {\n",
  "        whitespace(user_state, parent, context, source, position)\n",
  "    };\n",
  "    let closure_6 = _sequence(&closure_4, &closure_5);\n",
  "    let closure_7 = _subexpression(&closure_6);\n",
  "    let closure_8 = _optional(&closure_7);\n",
  "    let closure_9 = _sequence(&closure_1, &closure_8);\n",
  "    closure_9(parent, source, position)\n",
  "}\n",
  "#[allow(dead_code)]\n",
  "pub fn rule<T: Context>(\n",
  "    user_state: &RefCell<UserState>,\n",
  "    parent: Key,\n",
  "    context: &RefCell<T>,\n",
  "    source: &Source,\n",
  "    position: u32,\n",
  ") -> (bool, u32) {\n",
  "    let closure_1 = _var_name(user_state, Rules::LHS, context, lhs);\n",
  "    let closure_2 = move |parent: Key, source: &Source, position: u32| {\n",
  "        whitespace(user_state, parent, context, source, position)\n",
  "    };\n",
  "    let closure_3 = _sequence(&closure_1, &closure_2);\n",
  "    let closure_4 = move |parent: Key, source: &Source, position: u32| {\n",
  "        assignment(user_state, parent, context, source, position)\n",
  "    };\n",
  "    let closure_5 = _sequence(&closure_3, &closure_4);\n",
  "    let closure_6 = move |parent: Key, source: &Source, position: u32| {\n",
  "        whitespace(user_state, parent, context, source, position)\n",
  "    };\n",
  "    let closure_7 = _sequence(&closure_5, &closure_6);\n",
  "    let closure_8 = _var_name(user_state, Rules::RHS, context, rhs);\n",
  "    let closure_9 = _sequence(&closure_7, &closure_8);\n",
  "    let closure_10 = move |parent: Key, source: &Source, position: u32| {\n",
  "        whitespace(user_state, parent, context, source, position)\n",
  "    };\n",
  "    let closure_11 = _sequence(&closure_9, &closure_10);\n",
  "    let closure_12 = move |parent: Key, source: &Source, position: u32| {\n",
  "        end_rule(user_state, parent, context, source, position)\n",
  "    };\n",
  "    let closure_13 = _sequence(&closure_11, &closure_12);\n",
  "    let closure_14 = move |parent: Key, source: &Source, position: u32| {\n",
  "        whitespace(user_state, parent, context, source, position)\n",
  "    };\n",
  "    let closure_15 = _sequence(&closure_13, &closure_14);\n",
  "    let closure_16 = _var_name(user_state, Rules::Comment, context, comment);\n",
  "    let closure_17 = _zero_or_more(&closure_16);\n",
  "    let closure_18 = _sequence(&closure_15, &closure_17);\n",
  "    closure_18(parent, source, position)\n",
  "}\n",
  "#[allow(dead_code)]\n",
  "pub fn grammar<T: Context>(\n",
  "    user_state: &RefCell<UserState>,\n",
  "    parent: Key,\n",
  "    context: &RefCell<T>,\n",
  "    source: &Source,\n",
  "    position: u32,\n",
  ") -> (bool, u32) {\n",
  "    // Double up dem comments\n",
  "    let closure_1 = _var_name(user_state, Rules::Rule, context, rule);\n",
  "    let closure_2 = _one_or_more(&closure_1);\n",
  "    let closure_3 = move |parent: Key, source: &Source, position: u32| {\n",
  "        whitespace(user_state, parent, context, source, position)\n",
  "    };\n",
  "    let closure_4 = _optional(&closure_3);\n",
  "    let closure_5 = _sequence(&closure_2, &closure_4);\n",
  "    closure_5(parent, source, position)\n",
  "}\n",
  "#[allow(dead_code)]\n",
  "pub fn comment<T: Context>(\n",
  "    user_state: &RefCell<UserState>,\n",
  "    parent: Key,\n",
  "    context: &RefCell<T>,\n",
  "    source: &Source,\n",
  "    position: u32,\n",
  ") -> (bool, u32) {\n",
  "    let closure_1 = move |parent: Key, source: &Source, position: u32| {\n",
  "        whitespace(user_state, parent, context, source, position)\n",
  "    };\n",
  "    let closure_2 = _terminal(b'#');\n",
  "    let closure_3 = _sequence(&closure_1, &closure_2);\n",
  "    let closure_4 = _terminal(b'#');\n",
  "    let closure_5 = _not_predicate(&closure_4);\n",
  "    let closure_6 = _var_name(user_state, Rules::ASCII, context, ascii);\n",
  "    let closure_7 = _sequence(&closure_5, &closure_6);\n",
  "    let closure_8 = _subexpression(&closure_7);\n",
  "    let closure_9 = _zero_or_more(&closure_8);\n",
  "    let closure_10 = _sequence(&closure_3, &closure_9);\n",
  "    let closure_11 = _terminal(b'#');\n",
  "    let closure_12 = _sequence(&closure_10, &closure_11);\n",
  "    let closure_13 = move |parent: Key, source: &Source, position: u32| {\n",
  "        whitespace(user_state, parent, context, source, position)\n",
  "    };\n",
  "    let closure_14 = _sequence(&closure_12, &closure_13);\n",
  "    closure_14(parent, source, position)\n",
  "}\n",
  "#[allow(dead_code)]\n",
  "pub fn semantic_instructions<T: Context>(\n",
  "    user_state: &RefCell<UserState>,\n",
  "    parent: Key,\n",
  "    context: &RefCell<T>,\n",
  "    source: &Source,\n",
  "    position: u32,\n",
  ") -> (bool, u32) {\n",
  "    let closure_1 = _var_name(user_state, Rules::Inline, context, inline);\n",
  "    closure_1(parent, source, position)\n",
  "}\n",
  "#[allow(dead_code)]\n",
  "pub fn inline<T: Context>(\n",
  "    user_state: &RefCell<UserState>,\n",
  "    parent: Key,\n",
  "    context: &RefCell<T>,\n",
  "    source: &Source,\n",
  "    position: u32,\n",
  ") -> (bool, u32) {\n",
  "    // Comment\n",
  "    let closure_1 = _string_terminal_opt_ascii(b\"Inline\");\n",
  "    closure_1(parent, source, position)\n",
  "}\n"]

/-- parser/src/rules.rs:1-49 -/
def dslRules : List String := [
  "#![allow(non_camel_case_types)] // Again due to generation -> Might solve eventually\n",
  "use num_derive::FromPrimitive;\n",
  "impl From<u32> for Rules {\n",
  "    fn from(i: u32) -> Rules {\n",
  "        let element = num::FromPrimitive::from_u32(i);\n",
  "        match element {\n",
  "            Some(rule) => rule,\n",
  "            None => panic!(\"Not a valid Rule\"),\n",
  "        }\n",
  "    }\n",
  "}\n",
  "#[allow(dead_code)]\n",
  "pub static RULES_SIZE: u32 = 31;\n",
  "#[allow(clippy::upper_case_acronyms)] // Again due to generation -> Might solve eventually\n",
  "#[derive(PartialEq, Eq, Hash, FromPrimitive, Clone, Copy, Debug, Ord, PartialOrd)]\n",
  "\n",
  "pub enum Rules {\n",
  "    ASCII,\n",
  "    And_Predicate,\n",
  "    Atom,\n",
  "    Comment,\n",
  "    Epsilon,\n",
  "    Grammar,\n",
  "    Hex,\n",
  "    HexVal,\n",
  "    Hooked_Call,\n",
  "    Inline,\n",
  "    Integer,\n",
  "    LHS,\n",
  "    Newline,\n",
  "    Not_Predicate,\n",
  "    Nucleus,\n",
  "    Num,\n",
  "    NumNoZero,\n",
  "    One_Or_More,\n",
  "    Optional,\n",
  "    OrderedChoiceMatchRange,\n",
  "    Ordered_Choice,\n",
  "    RHS,\n",
  "    Rule,\n",
  "    Semantic_Instructions,\n",
  "    Sequence,\n",
  "    StringTerminal,\n",
  "    Subexpression,\n",
  "    Terminal,\n",
  "    Var_Name_Decl,\n",
  "    Var_Name_Ref,\n",
  "    Zero_Or_More,\n",
  "}\n"]

/-- examples/example_1_parser/src/parser.rs:1-125 -/
def ex1Parser : List String := [
  "#![allow(non_camel_case_types)] // Generated Code kinda annoying to deal with so w/e\n",
  "#![allow(unused_variables)] // Generated Code also, since everything passes stuff\n",
  "#![allow(unused_imports)] // Generated Code also, since everything passes stuff\n",
  "use crate::*;\n",
  "use std::cell::RefCell;\n",
  "#[allow(dead_code)]\n",
  "pub fn expr<T: Context>(\n",
  "    user_state: &RefCell<UserState>,\n",
  "    parent: Key,\n",
  "    context: &RefCell<T>,\n",
  "    source: &Source,\n",
  "    position: u32,\n",
  ") -> (bool, u32) {\n",
  "    let involved_set: Vec<Rules> = [Rules::Addition, Rules::Expr, Rules::Subtraction].to_vec();\n",
  "    let closure_1 = _var_name_indirect_left_recursion(\n",
  "        user_state,\n",
  "        &involved_set,\n",
  "        Rules::Addition,\n",
  "        context,\n",
  "        addition,\n",
  "    );\n",
  "    let involved_set: Vec<Rules> = [Rules::Addition, Rules::Expr, Rules::Subtraction].to_vec();\n",
  "    let closure_2 = _var_name_indirect_left_recursion(\n",
  "        user_state,\n",
  "        &involved_set,\n",
  "        Rules::Subtraction,\n",
  "        context,\n",
  "        subtraction,\n",
  "    );\n",
  "    let closure_3 = _ordered_choice(&closure_1, &closure_2);\n",
  "    let closure_4 = _var_name(user_state, Rules::Integer, context, integer);\n",
  "    let closure_5 = _ordered_choice(&closure_3, &closure_4);\n",
  "    closure_5(parent, source, position)\n",
  "}\n",
  "#[allow(dead_code)]\n",
  "pub fn addition<T: Context>(\n",
  "    user_state: &RefCell<UserState>,\n",
  "    parent: Key,\n",
  "    context: &RefCell<T>,\n",
  "    source: &Source,\n",
  "    position: u32,\n",
  ") -> (bool, u32) {\n",
  "    let involved_set: Vec<Rules> = [Rules::Addition, Rules::Expr, Rules::Subtraction].to_vec();\n",
  "    let closure_1 =\n",
  "        _var_name_indirect_left_recursion(user_state, &involved_set, Rules::Expr, context, expr);\n",
  "    let closure_2 = _terminal(b'+');\n",
  "    let closure_3 = _sequence(&closure_1, &closure_2);\n",
  "    let closure_4 = _var_name(user_state, Rules::Integer, context, integer);\n",
  "    let closure_5 = _sequence(&closure_3, &closure_4);\n",
  "    closure_5(parent, source, position)\n",
  "}\n",
  "#[allow(dead_code)]\n",
  "pub fn subtraction<T: Context>(\n",
  "    user_state: &RefCell<UserState>,\n",
  "    parent: Key,\n",
  "    context: &RefCell<T>,\n",
  "    source: &Source,\n",
  "    position: u32,\n",
  ") -> (bool, u32) {\n",
  "    let involved_set: Vec<Rules> = [Rules::Addition, Rules::Expr, Rules::Subtraction].to_vec();\n",
  "    let closure_1 =\n",
  "        _var_name_indirect_left_recursion(user_state, &involved_set, Rules::Expr, context, expr);\n",
  "    let closure_2 = _terminal(b'-');\n",
  "    let closure_3 = _sequence(&closure_1, &closure_2);\n",
  "    let closure_4 = _var_name(user_state, Rules::Integer, context, integer);\n",
  "    let closure_5 = _sequence(&closure_3, &closure_4);\n",
  "    closure_5(parent, source, position)\n",
  "}\n",
  "#[allow(dead_code)]\n",
  "pub fn onenine<T: Context>(\n",
  "    user_state: &RefCell<UserState>,\n",
  "    parent: Key,\n",
  "    context: &RefCell<T>,\n",
  "    source: &Source,\n",
  "    position: u32,\n",
  ") -> (bool, u32) {\n",
  "    let closure_1 = _ordered_choice_match_range(49, 57);\n",
  "    closure_1(parent, source, position)\n",
  "}\n",
  "#[allow(dead_code)]\n",
  "pub fn digit<T: Context>(\n",
  "    user_state: &RefCell<UserState>,\n",
  "    parent: Key,\n",
  "    context: &RefCell<T>,\n",
  "    source: &Source,\n",
  "    position: u32,\n",
  ") -> (bool, u32) {\n",
  "    let closure_1 = _ordered_choice_match_range(48, 57);\n",
  "    closure_1(parent, source, position)\n",
  "}\n",
  "#[allow(dead_code)]\n",
  "pub fn integer<T: Context>(\n",
  "    user_state: &RefCell<UserState>,\n",
  "    parent: Key,\n",
  "    context: &RefCell<T>,\n",
  "    source: &Source,\n",
  "    position: u32,\n",
  ") -> (bool, u32) {\n",
  "    let closure_1 = move |parent: Key, source: &Source, position: u32| {\n",
  "        onenine(user_state, parent, context, source, position)\n",
  "    };\n",
  "    let closure_2 = move |parent: Key, source: &Source, position: u32| {\n",
  "        digit(user_state, parent, context, source, position)\n",
  "    };\n",
  "    let closure_3 = _zero_or_more(&closure_2);\n",
  "    let closure_4 = _sequence(&closure_1, &closure_3);\n",
  "    closure_4(parent, source, position)\n",
  "}\n",
  "#[allow(dead_code)]\n",
  "pub fn grammar<T: Context>(\n",
  "    user_state: &RefCell<UserState>,\n",
  "    parent: Key,\n",
  "    context: &RefCell<T>,\n",
  "    source: &Source,\n",
  "    position: u32,\n",
  ") -> (bool, u32) {\n",
  "    // This is a\n",
  "    // Multi line comment\n",
  "    // So we can check output is correct\n",
  "\n",
  "    let involved_set: Vec<Rules> = [Rules::Addition, Rules::Expr, Rules::Subtraction].to_vec();\n",
  "    let closure_1 =\n",
  "        _var_name_indirect_left_recursion(user_state, &involved_set, Rules::Expr, context, expr);\n",
  "    closure_1(parent, source, position)\n",
  "}\n"]

/-- examples/example_1_parser/src/rules.rs:1-23 -/
def ex1Rules : List String := [
  "#![allow(non_camel_case_types)] // Again due to generation -> Might solve eventually\n",
  "use num_derive::FromPrimitive;\n",
  "impl From<u32> for Rules {\n",
  "    fn from(i: u32) -> Rules {\n",
  "        let element = num::FromPrimitive::from_u32(i);\n",
  "        match element {\n",
  "            Some(rule) => rule,\n",
  "            None => panic!(\"Not a valid Rule\"),\n",
  "        }\n",
  "    }\n",
  "}\n",
  "#[allow(dead_code)]\n",
  "pub static RULES_SIZE: u32 = 5;\n",
  "#[allow(clippy::upper_case_acronyms)] // Again due to generation -> Might solve eventually\n",
  "#[derive(PartialEq, Eq, Hash, FromPrimitive, Clone, Copy, Debug, Ord, PartialOrd)]\n",
  "\n",
  "pub enum Rules {\n",
  "    Grammar,\n",
  "    Addition,\n",
  "    Expr,\n",
  "    Integer,\n",
  "    Subtraction,\n",
  "}\n"]

/-- examples/example_2_parser/src/parser.rs:1-54 -/
def ex2Parser : List String := [
  "#![allow(non_camel_case_types)] // Generated Code kinda annoying to deal with so w/e\n",
  "#![allow(unused_variables)] // Generated Code also, since everything passes stuff\n",
  "#![allow(unused_imports)] // Generated Code also, since everything passes stuff\n",
  "use crate::*;\n",
  "use std::cell::RefCell;\n",
  "#[allow(dead_code)]\n",
  "pub fn a<T: Context>(\n",
  "    user_state: &RefCell<UserState>,\n",
  "    parent: Key,\n",
  "    context: &RefCell<T>,\n",
  "    source: &Source,\n",
  "    position: u32,\n",
  ") -> (bool, u32) {\n",
  "    let involved_set: Vec<Rules> = [Rules::A, Rules::B].to_vec();\n",
  "    let closure_1 =\n",
  "        _var_name_indirect_left_recursion(user_state, &involved_set, Rules::B, context, b);\n",
  "    let closure_2 = _terminal(b'a');\n",
  "    let closure_3 = _sequence(&closure_1, &closure_2);\n",
  "    let closure_4 = _subexpression(&closure_3);\n",
  "    let closure_5 = _terminal(b'a');\n",
  "    let closure_6 = _ordered_choice(&closure_4, &closure_5);\n",
  "    closure_6(parent, source, position)\n",
  "}\n",
  "#[allow(dead_code)]\n",
  "pub fn b<T: Context>(\n",
  "    user_state: &RefCell<UserState>,\n",
  "    parent: Key,\n",
  "    context: &RefCell<T>,\n",
  "    source: &Source,\n",
  "    position: u32,\n",
  ") -> (bool, u32) {\n",
  "    let involved_set: Vec<Rules> = [Rules::A, Rules::B].to_vec();\n",
  "    let closure_1 =\n",
  "        _var_name_indirect_left_recursion(user_state, &involved_set, Rules::A, context, a);\n",
  "    let closure_2 = _terminal(b'b');\n",
  "    let closure_3 = _sequence(&closure_1, &closure_2);\n",
  "    let closure_4 = _subexpression(&closure_3);\n",
  "    let closure_5 = _terminal(b'b');\n",
  "    let closure_6 = _ordered_choice(&closure_4, &closure_5);\n",
  "    closure_6(parent, source, position)\n",
  "}\n",
  "#[allow(dead_code)]\n",
  "pub fn grammar<T: Context>(\n",
  "    user_state: &RefCell<UserState>,\n",
  "    parent: Key,\n",
  "    context: &RefCell<T>,\n",
  "    source: &Source,\n",
  "    position: u32,\n",
  ") -> (bool, u32) {\n",
  "    let involved_set: Vec<Rules> = [Rules::A, Rules::B].to_vec();\n",
  "    let closure_1 =\n",
  "        _var_name_indirect_left_recursion(user_state, &involved_set, Rules::A, context, a);\n",
  "    closure_1(parent, source, position)\n",
  "}\n"]

/-- examples/example_2_parser/src/rules.rs:1-21 -/
def ex2Rules : List String := [
  "#![allow(non_camel_case_types)] // Again due to generation -> Might solve eventually\n",
  "use num_derive::FromPrimitive;\n",
  "impl From<u32> for Rules {\n",
  "    fn from(i: u32) -> Rules {\n",
  "        let element = num::FromPrimitive::from_u32(i);\n",
  "        match element {\n",
  "            Some(rule) => rule,\n",
  "            None => panic!(\"Not a valid Rule\"),\n",
  "        }\n",
  "    }\n",
  "}\n",
  "#[allow(dead_code)]\n",
  "pub static RULES_SIZE: u32 = 3;\n",
  "#[allow(clippy::upper_case_acronyms)] // Again due to generation -> Might solve eventually\n",
  "#[derive(PartialEq, Eq, Hash, FromPrimitive, Clone, Copy, Debug, Ord, PartialOrd)]\n",
  "\n",
  "pub enum Rules {\n",
  "    A,\n",
  "    B,\n",
  "    Grammar,\n",
  "}\n"]

/-- examples/example_3_basic_maths_parser/src/parser.rs:1-299 -/
def ex3Parser : List String := [
  "#![allow(non_camel_case_types)] // Generated Code kinda annoying to deal with so w/e\n",
  "#![allow(unused_variables)] // Generated Code also, since everything passes stuff\n",
  "#![allow(unused_imports)] // Generated Code also, since everything passes stuff\n",
  "use crate::*;\n",
  "use std::cell::RefCell;\n",
  "#[allow(dead_code)]\n",
  "pub fn onenine<T: Context>(\n",
  "    user_state: &RefCell<UserState>,\n",
  "    parent: Key,\n",
  "    context: &RefCell<T>,\n",
  "    source: &Source,\n",
  "    position: u32,\n",
  ") -> (bool, u32) {\n",
  "    let closure_1 = _ordered_choice_match_range(49, 57);\n",
  "    closure_1(parent, source, position)\n",
  "}\n",
  "#[allow(dead_code)]\n",
  "pub fn digit<T: Context>(\n",
  "    user_state: &RefCell<UserState>,\n",
  "    parent: Key,\n",
  "    context: &RefCell<T>,\n",
  "    source: &Source,\n",
  "    position: u32,\n",
  ") -> (bool, u32) {\n",
  "    let closure_1 = _ordered_choice_match_range(48, 57);\n",
  "    closure_1(parent, source, position)\n",
  "}\n",
  "#[allow(dead_code)]\n",
  "pub fn integer<T: Context>(\n",
  "    user_state: &RefCell<UserState>,\n",
  "    parent: Key,\n",
  "    context: &RefCell<T>,\n",
  "    source: &Source,\n",
  "    position: u32,\n",
  ") -> (bool, u32) {\n",
  "    let closure_1 = _var_name(user_state, Rules::Sign, context, sign);\n",
  "    let closure_2 = move |parent: Key, source: &Source, position: u32| {\n",
  "        onenine(user_state, parent, context, source, position)\n",
  "    };\n",
  "    let closure_3 = move |parent: Key, source: &Source, position: u32| {\n",
  "        digit(user_state, parent, context, source, position)\n",
  "    };\n",
  "    let closure_4 = _one_or_more(&closure_3);\n",
  "    let closure_5 = _sequence(&closure_2, &closure_4);\n",
  "    let closure_6 = _subexpression(&closure_5);\n",
  "    let closure_7 = move |parent: Key, source: &Source, position: u32| {\n",
  "        digit(user_state, parent, context, source, position)\n",
  "    };\n",
  "    let closure_8 = _ordered_choice(&closure_6, &closure_7);\n",
  "    let closure_9 = _subexpression(&closure_8);\n",
  "    let closure_10 = _sequence(&closure_1, &closure_9);\n",
  "    closure_10(parent, source, position)\n",
  "}\n",
  "#[allow(dead_code)]\n",
  "pub fn number<T: Context>(\n",
  "    user_state: &RefCell<UserState>,\n",
  "    parent: Key,\n",
  "    context: &RefCell<T>,\n",
  "    source: &Source,\n",
  "    position: u32,\n",
  ") -> (bool, u32) {\n",
  "    let closure_1 = _var_name(user_state, Rules::Integer, context, integer);\n",
  "    let closure_2 = _var_name(user_state, Rules::Fraction, context, fraction);\n",
  "    let closure_3 = _optional(&closure_2);\n",
  "    let closure_4 = _sequence(&closure_1, &closure_3);\n",
  "    let closure_5 = _var_name(user_state, Rules::Exponent, context, exponent);\n",
  "    let closure_6 = _optional(&closure_5);\n",
  "    let closure_7 = _sequence(&closure_4, &closure_6);\n",
  "    closure_7(parent, source, position)\n",
  "}\n",
  "#[allow(dead_code)]\n",
  "pub fn fraction<T: Context>(\n",
  "    user_state: &RefCell<UserState>,\n",
  "    parent: Key,\n",
  "    context: &RefCell<T>,\n",
  "    source: &Source,\n",
  "    position: u32,\n",
  ") -> (bool, u32) {\n",
  "    let closure_1 = _terminal(b'.');\n",
  "    let closure_2 = move |parent: Key, source: &Source, position: u32| {\n",
  "        digit(user_state, parent, context, source, position)\n",
  "    };\n",
  "    let closure_3 = _one_or_more(&closure_2);\n",
  "    let closure_4 = _sequence(&closure_1, &closure_3);\n",
  "    let closure_5 = _subexpression(&closure_4);\n",
  "    closure_5(parent, source, position)\n",
  "}\n",
  "#[allow(dead_code)]\n",
  "pub fn exponent<T: Context>(\n",
  "    user_state: &RefCell<UserState>,\n",
  "    parent: Key,\n",
  "    context: &RefCell<T>,\n",
  "    source: &Source,\n",
  "    position: u32,\n",
  ") -> (bool, u32) {\n",
  "    let closure_1 = _terminal(b'E');\n",
  "    let closure_2 = _terminal(b'e');\n",
  "    let closure_3 = _ordered_choice(&closure_1, &closure_2);\n",
  "    let closure_4 = _subexpression(&closure_3);\n",
  "    let closure_5 = _var_name(user_state, Rules::Sign, context, sign);\n",
  "    let closure_6 = _sequence(&closure_4, &closure_5);\n",
  "    let closure_7 = move |parent: Key, source: &Source, position: u32| {\n",
  "        digit(user_state, parent, context, source, position)\n",
  "    };\n",
  "    let closure_8 = _one_or_more(&closure_7);\n",
  "    let closure_9 = _sequence(&closure_6, &closure_8);\n",
  "    let closure_10 = _subexpression(&closure_9);\n",
  "    closure_10(parent, source, position)\n",
  "}\n",
  "#[allow(dead_code)]\n",
  "pub fn sign<T: Context>(\n",
  "    user_state: &RefCell<UserState>,\n",
  "    parent: Key,\n",
  "    context: &RefCell<T>,\n",
  "    source: &Source,\n",
  "    position: u32,\n",
  ") -> (bool, u32) {\n",
  "    let closure_1 = _terminal(b'+');\n",
  "    let closure_2 = _terminal(b'-');\n",
  "    let closure_3 = _ordered_choice(&closure_1, &closure_2);\n",
  "    let closure_4 = _subexpression(&closure_3);\n",
  "    let closure_5 = _optional(&closure_4);\n",
  "    closure_5(parent, source, position)\n",
  "}\n",
  "#[allow(dead_code)]\n",
  "pub fn addition<T: Context>(\n",
  "    user_state: &RefCell<UserState>,\n",
  "    parent: Key,\n",
  "    context: &RefCell<T>,\n",
  "    source: &Source,\n",
  "    position: u32,\n",
  ") -> (bool, u32) {\n",
  "    let involved_set: Vec<Rules> = [Rules::Addition, Rules::Expr, Rules::Subtraction].to_vec();\n",
  "    let closure_1 =\n",
  "        _var_name_indirect_left_recursion(user_state, &involved_set, Rules::Expr, context, expr);\n",
  "    let closure_2 = _terminal(b'+');\n",
  "    let closure_3 = _sequence(&closure_1, &closure_2);\n",
  "    let involved_set: Vec<Rules> = [Rules::Division, Rules::Multiplication, Rules::Term].to_vec();\n",
  "    let closure_4 =\n",
  "        _var_name_indirect_left_recursion(user_state, &involved_set, Rules::Term, context, term);\n",
  "    let closure_5 = _sequence(&closure_3, &closure_4);\n",
  "    closure_5(parent, source, position)\n",
  "}\n",
  "#[allow(dead_code)]\n",
  "pub fn subtraction<T: Context>(\n",
  "    user_state: &RefCell<UserState>,\n",
  "    parent: Key,\n",
  "    context: &RefCell<T>,\n",
  "    source: &Source,\n",
  "    position: u32,\n",
  ") -> (bool, u32) {\n",
  "    let involved_set: Vec<Rules> = [Rules::Addition, Rules::Expr, Rules::Subtraction].to_vec();\n",
  "    let closure_1 =\n",
  "        _var_name_indirect_left_recursion(user_state, &involved_set, Rules::Expr, context, expr);\n",
  "    let closure_2 = _terminal(b'-');\n",
  "    let closure_3 = _sequence(&closure_1, &closure_2);\n",
  "    let involved_set: Vec<Rules> = [Rules::Division, Rules::Multiplication, Rules::Term].to_vec();\n",
  "    let closure_4 =\n",
  "        _var_name_indirect_left_recursion(user_state, &involved_set, Rules::Term, context, term);\n",
  "    let closure_5 = _sequence(&closure_3, &closure_4);\n",
  "    closure_5(parent, source, position)\n",
  "}\n",
  "#[allow(dead_code)]\n",
  "pub fn multiplication<T: Context>(\n",
  "    user_state: &RefCell<UserState>,\n",
  "    parent: Key,\n",
  "    context: &RefCell<T>,\n",
  "    source: &Source,\n",
  "    position: u32,\n",
  ") -> (bool, u32) {\n",
  "    let involved_set: Vec<Rules> = [Rules::Division, Rules::Multiplication, Rules::Term].to_vec();\n",
  "    let closure_1 =\n",
  "        _var_name_indirect_left_recursion(user_state, &involved_set, Rules::Term, context, term);\n",
  "    let closure_2 = _terminal(b'*');\n",
  "    let closure_3 = _sequence(&closure_1, &closure_2);\n",
  "    let closure_4 = _var_name(user_state, Rules::Factor, context, factor);\n",
  "    let closure_5 = _sequence(&closure_3, &closure_4);\n",
  "    closure_5(parent, source, position)\n",
  "}\n",
  "#[allow(dead_code)]\n",
  "pub fn division<T: Context>(\n",
  "    user_state: &RefCell<UserState>,\n",
  "    parent: Key,\n",
  "    context: &RefCell<T>,\n",
  "    source: &Source,\n",
  "    position: u32,\n",
  ") -> (bool, u32) {\n",
  "    let involved_set: Vec<Rules> = [Rules::Division, Rules::Multiplication, Rules::Term].to_vec();\n",
  "    let closure_1 =\n",
  "        _var_name_indirect_left_recursion(user_state, &involved_set, Rules::Term, context, term);\n",
  "    let closure_2 = _terminal(b'/');\n",
  "    let closure_3 = _sequence(&closure_1, &closure_2);\n",
  "    let closure_4 = _var_name(user_state, Rules::Factor, context, factor);\n",
  "    let closure_5 = _sequence(&closure_3, &closure_4);\n",
  "    closure_5(parent, source, position)\n",
  "}\n",
  "#[allow(dead_code)]\n",
  "pub fn parentheses<T: Context>(\n",
  "    user_state: &RefCell<UserState>,\n",
  "    parent: Key,\n",
  "    context: &RefCell<T>,\n",
  "    source: &Source,\n",
  "    position: u32,\n",
  ") -> (bool, u32) {\n",
  "    let closure_1 = _terminal(b'(');\n",
  "    let involved_set: Vec<Rules> = [Rules::Addition, Rules::Expr, Rules::Subtraction].to_vec();\n",
  "    let closure_2 =\n",
  "        _var_name_indirect_left_recursion(user_state, &involved_set, Rules::Expr, context, expr);\n",
  "    let closure_3 = _sequence(&closure_1, &closure_2);\n",
  "    let closure_4 = _terminal(b')');\n",
  "    let closure_5 = _sequence(&closure_3, &closure_4);\n",
  "    closure_5(parent, source, position)\n",
  "}\n",
  "#[allow(dead_code)]\n",
  "pub fn expr<T: Context>(\n",
  "    user_state: &RefCell<UserState>,\n",
  "    parent: Key,\n",
  "    context: &RefCell<T>,\n",
  "    source: &Source,\n",
  "    position: u32,\n",
  ") -> (bool, u32) {\n",
  "    let involved_set: Vec<Rules> = [Rules::Addition, Rules::Expr, Rules::Subtraction].to_vec();\n",
  "    let closure_1 = _var_name_indirect_left_recursion(\n",
  "        user_state,\n",
  "        &involved_set,\n",
  "        Rules::Addition,\n",
  "        context,\n",
  "        addition,\n",
  "    );\n",
  "    let involved_set: Vec<Rules> = [Rules::Addition, Rules::Expr, Rules::Subtraction].to_vec();\n",
  "    let closure_2 = _var_name_indirect_left_recursion(\n",
  "        user_state,\n",
  "        &involved_set,\n",
  "        Rules::Subtraction,\n",
  "        context,\n",
  "        subtraction,\n",
  "    );\n",
  "    let closure_3 = _ordered_choice(&closure_1, &closure_2);\n",
  "    let involved_set: Vec<Rules> = [Rules::Division, Rules::Multiplication, Rules::Term].to_vec();\n",
  "    let closure_4 =\n",
  "        _var_name_indirect_left_recursion(user_state, &involved_set, Rules::Term, context, term);\n",
  "    let closure_5 = _ordered_choice(&closure_3, &closure_4);\n",
  "    closure_5(parent, source, position)\n",
  "}\n",
  "#[allow(dead_code)]\n",
  "pub fn term<T: Context>(\n",
  "    user_state: &RefCell<UserState>,\n",
  "    parent: Key,\n",
  "    context: &RefCell<T>,\n",
  "    source: &Source,\n",
  "    position: u32,\n",
  ") -> (bool, u32) {\n",
  "    let involved_set: Vec<Rules> = [Rules::Division, Rules::Multiplication, Rules::Term].to_vec();\n",
  "    let closure_1 = _var_name_indirect_left_recursion(\n",
  "        user_state,\n",
  "        &involved_set,\n",
  "        Rules::Multiplication,\n",
  "        context,\n",
  "        multiplication,\n",
  "    );\n",
  "    let involved_set: Vec<Rules> = [Rules::Division, Rules::Multiplication, Rules::Term].to_vec();\n",
  "    let closure_2 = _var_name_indirect_left_recursion(\n",
  "        user_state,\n",
  "        &involved_set,\n",
  "        Rules::Division,\n",
  "        context,\n",
  "        division,\n",
  "    );\n",
  "    let closure_3 = _ordered_choice(&closure_1, &closure_2);\n",
  "    let closure_4 = _var_name(user_state, Rules::Factor, context, factor);\n",
  "    let closure_5 = _ordered_choice(&closure_3, &closure_4);\n",
  "    closure_5(parent, source, position)\n",
  "}\n",
  "#[allow(dead_code)]\n",
  "pub fn factor<T: Context>(\n",
  "    user_state: &RefCell<UserState>,\n",
  "    parent: Key,\n",
  "    context: &RefCell<T>,\n",
  "    source: &Source,\n",
  "    position: u32,\n",
  ") -> (bool, u32) {\n",
  "    let closure_1 = _var_name(user_state, Rules::Parentheses, context, parentheses);\n",
  "    let closure_2 = _var_name(user_state, Rules::Number, context, number);\n",
  "    let closure_3 = _ordered_choice(&closure_1, &closure_2);\n",
  "    closure_3(parent, source, position)\n",
  "}\n",
  "#[allow(dead_code)]\n",
  "pub fn grammar<T: Context>(\n",
  "    user_state: &RefCell<UserState>,\n",
  "    parent: Key,\n",
  "    context: &RefCell<T>,\n",
  "    source: &Source,\n",
  "    position: u32,\n",
  ") -> (bool, u32) {\n",
  "    let involved_set: Vec<Rules> = [Rules::Addition, Rules::Expr, Rules::Subtraction].to_vec();\n",
  "    let closure_1 =\n",
  "        _var_name_indirect_left_recursion(user_state, &involved_set, Rules::Expr, context, expr);\n",
  "    closure_1(parent, source, position)\n",
  "}\n"]

/-- examples/example_3_basic_maths_parser/src/rules.rs:1-32 -/
def ex3Rules : List String := [
  "#![allow(non_camel_case_types)] // Again due to generation -> Might solve eventually\n",
  "use num_derive::FromPrimitive;\n",
  "impl From<u32> for Rules {\n",
  "    fn from(i: u32) -> Rules {\n",
  "        let element = num::FromPrimitive::from_u32(i);\n",
  "        match element {\n",
  "            Some(rule) => rule,\n",
  "            None => panic!(\"Not a valid Rule\"),\n",
  "        }\n",
  "    }\n",
  "}\n",
  "#[allow(dead_code)]\n",
  "pub static RULES_SIZE: u32 = 14;\n",
  "#[allow(clippy::upper_case_acronyms)] // Again due to generation -> Might solve eventually\n",
  "#[derive(PartialEq, Eq, Hash, FromPrimitive, Clone, Copy, Debug, Ord, PartialOrd)]\n",
  "\n",
  "pub enum Rules {\n",
  "    Grammar,\n",
  "    Addition,\n",
  "    Division,\n",
  "    Exponent,\n",
  "    Expr,\n",
  "    Factor,\n",
  "    Fraction,\n",
  "    Integer,\n",
  "    Multiplication,\n",
  "    Number,\n",
  "    Parentheses,\n",
  "    Sign,\n",
  "    Subtraction,\n",
  "    Term,\n",
  "}\n"]

/-- examples/example_4_full_maths_parser/src/parser.rs:1-327 -/
def ex4Parser : List String := [
  "#![allow(non_camel_case_types)] // Generated Code kinda annoying to deal with so w/e\n",
  "#![allow(unused_variables)] // Generated Code also, since everything passes stuff\n",
  "#![allow(unused_imports)] // Generated Code also, since everything passes stuff\n",
  "use crate::*;\n",
  "use std::cell::RefCell;\n",
  "#[allow(dead_code)]\n",
  "pub fn onenine<T: Context>(\n",
  "    user_state: &RefCell<UserState>,\n",
  "    parent: Key,\n",
  "    context: &RefCell<T>,\n",
  "    source: &Source,\n",
  "    position: u32,\n",
  ") -> (bool, u32) {\n",
  "    let closure_1 = _ordered_choice_match_range(49, 57);\n",
  "    closure_1(parent, source, position)\n",
  "}\n",
  "#[allow(dead_code)]\n",
  "pub fn digit<T: Context>(\n",
  "    user_state: &RefCell<UserState>,\n",
  "    parent: Key,\n",
  "    context: &RefCell<T>,\n",
  "    source: &Source,\n",
  "    position: u32,\n",
  ") -> (bool, u32) {\n",
  "    let closure_1 = _ordered_choice_match_range(48, 57);\n",
  "    closure_1(parent, source, position)\n",
  "}\n",
  "#[allow(dead_code)]\n",
  "pub fn integer<T: Context>(\n",
  "    user_state: &RefCell<UserState>,\n",
  "    parent: Key,\n",
  "    context: &RefCell<T>,\n",
  "    source: &Source,\n",
  "    position: u32,\n",
  ") -> (bool, u32) {\n",
  "    let closure_1 = _var_name(user_state, Rules::Sign, context, sign);\n",
  "    let closure_2 = move |parent: Key, source: &Source, position: u32| {\n",
  "        onenine(user_state, parent, context, source, position)\n",
  "    };\n",
  "    let closure_3 = move |parent: Key, source: &Source, position: u32| {\n",
  "        digit(user_state, parent, context, source, position)\n",
  "    };\n",
  "    let closure_4 = _one_or_more(&closure_3);\n",
  "    let closure_5 = _sequence(&closure_2, &closure_4);\n",
  "    let closure_6 = _subexpression(&closure_5);\n",
  "    let closure_7 = move |parent: Key, source: &Source, position: u32| {\n",
  "        digit(user_state, parent, context, source, position)\n",
  "    };\n",
  "    let closure_8 = _ordered_choice(&closure_6, &closure_7);\n",
  "    let closure_9 = _subexpression(&closure_8);\n",
  "    let closure_10 = _sequence(&closure_1, &closure_9);\n",
  "    closure_10(parent, source, position)\n",
  "}\n",
  "#[allow(dead_code)]\n",
  "pub fn number<T: Context>(\n",
  "    user_state: &RefCell<UserState>,\n",
  "    parent: Key,\n",
  "    context: &RefCell<T>,\n",
  "    source: &Source,\n",
  "    position: u32,\n",
  ") -> (bool, u32) {\n",
  "    let closure_1 = _var_name(user_state, Rules::Integer, context, integer);\n",
  "    let closure_2 = _var_name(user_state, Rules::Fraction, context, fraction);\n",
  "    let closure_3 = _optional(&closure_2);\n",
  "    let closure_4 = _sequence(&closure_1, &closure_3);\n",
  "    let closure_5 = _var_name(user_state, Rules::Exponent, context, exponent);\n",
  "    let closure_6 = _optional(&closure_5);\n",
  "    let closure_7 = _sequence(&closure_4, &closure_6);\n",
  "    closure_7(parent, source, position)\n",
  "}\n",
  "#[allow(dead_code)]\n",
  "pub fn fraction<T: Context>(\n",
  "    user_state: &RefCell<UserState>,\n",
  "    parent: Key,\n",
  "    context: &RefCell<T>,\n",
  "    source: &Source,\n",
  "    position: u32,\n",
  ") -> (bool, u32) {\n",
  "    let closure_1 = _terminal(b'.');\n",
  "    let closure_2 = move |parent: Key, source: &Source, position: u32| {\n",
  "        digit(user_state, parent, context, source, position)\n",
  "    };\n",
  "    let closure_3 = _one_or_more(&closure_2);\n",
  "    let closure_4 = _sequence(&closure_1, &closure_3);\n",
  "    let closure_5 = _subexpression(&closure_4);\n",
  "    closure_5(parent, source, position)\n",
  "}\n",
  "#[allow(dead_code)]\n",
  "pub fn exponent<T: Context>(\n",
  "    user_state: &RefCell<UserState>,\n",
  "    parent: Key,\n",
  "    context: &RefCell<T>,\n",
  "    source: &Source,\n",
  "    position: u32,\n",
  ") -> (bool, u32) {\n",
  "    let closure_1 = _terminal(b'E');\n",
  "    let closure_2 = _terminal(b'e');\n",
  "    let closure_3 = _ordered_choice(&closure_1, &closure_2);\n",
  "    let closure_4 = _subexpression(&closure_3);\n",
  "    let closure_5 = _var_name(user_state, Rules::Sign, context, sign);\n",
  "    let closure_6 = _sequence(&closure_4, &closure_5);\n",
  "    let closure_7 = move |parent: Key, source: &Source, position: u32| {\n",
  "        digit(user_state, parent, context, source, position)\n",
  "    };\n",
  "    let closure_8 = _one_or_more(&closure_7);\n",
  "    let closure_9 = _sequence(&closure_6, &closure_8);\n",
  "    let closure_10 = _subexpression(&closure_9);\n",
  "    closure_10(parent, source, position)\n",
  "}\n",
  "#[allow(dead_code)]\n",
  "pub fn sign<T: Context>(\n",
  "    user_state: &RefCell<UserState>,\n",
  "    parent: Key,\n",
  "    context: &RefCell<T>,\n",
  "    source: &Source,\n",
  "    position: u32,\n",
  ") -> (bool, u32) {\n",
  "    let closure_1 = _terminal(b'+');\n",
  "    let closure_2 = _terminal(b'-');\n",
  "    let closure_3 = _ordered_choice(&closure_1, &closure_2);\n",
  "    let closure_4 = _subexpression(&closure_3);\n",
  "    let closure_5 = _optional(&closure_4);\n",
  "    closure_5(parent, source, position)\n",
  "}\n",
  "#[allow(dead_code)]\n",
  "pub fn addition<T: Context>(\n",
  "    user_state: &RefCell<UserState>,\n",
  "    parent: Key,\n",
  "    context: &RefCell<T>,\n",
  "    source: &Source,\n",
  "    position: u32,\n",
  ") -> (bool, u32) {\n",
  "    let involved_set: Vec<Rules> = [Rules::Addition, Rules::Expr, Rules::Subtraction].to_vec();\n",
  "    let closure_1 =\n",
  "        _var_name_indirect_left_recursion(user_state, &involved_set, Rules::Expr, context, expr);\n",
  "    let closure_2 = _terminal(b'+');\n",
  "    let closure_3 = _sequence(&closure_1, &closure_2);\n",
  "    let involved_set: Vec<Rules> = [Rules::Division, Rules::Multiplication, Rules::Term].to_vec();\n",
  "    let closure_4 =\n",
  "        _var_name_indirect_left_recursion(user_state, &involved_set, Rules::Term, context, term);\n",
  "    let closure_5 = _sequence(&closure_3, &closure_4);\n",
  "    closure_5(parent, source, position)\n",
  "}\n",
  "#[allow(dead_code)]\n",
  "pub fn subtraction<T: Context>(\n",
  "    user_state: &RefCell<UserState>,\n",
  "    parent: Key,\n",
  "    context: &RefCell<T>,\n",
  "    source: &Source,\n",
  "    position: u32,\n",
  ") -> (bool, u32) {\n",
  "    let involved_set: Vec<Rules> = [Rules::Addition, Rules::Expr, Rules::Subtraction].to_vec();\n",
  "    let closure_1 =\n",
  "        _var_name_indirect_left_recursion(user_state, &involved_set, Rules::Expr, context, expr);\n",
  "    let closure_2 = _terminal(b'-');\n",
  "    let closure_3 = _sequence(&closure_1, &closure_2);\n",
  "    let involved_set: Vec<Rules> = [Rules::Division, Rules::Multiplication, Rules::Term].to_vec();\n",
  "    let closure_4 =\n",
  "        _var_name_indirect_left_recursion(user_state, &involved_set, Rules::Term, context, term);\n",
  "    let closure_5 = _sequence(&closure_3, &closure_4);\n",
  "    closure_5(parent, source, position)\n",
  "}\n",
  "#[allow(dead_code)]\n",
  "pub fn multiplication<T: Context>(\n",
  "    user_state: &RefCell<UserState>,\n",
  "    parent: Key,\n",
  "    context: &RefCell<T>,\n",
  "    source: &Source,\n",
  "    position: u32,\n",
  ") -> (bool, u32) {\n",
  "    let involved_set: Vec<Rules> = [Rules::Division, Rules::Multiplication, Rules::Term].to_vec();\n",
  "    let closure_1 =\n",
  "        _var_name_indirect_left_recursion(user_state, &involved_set, Rules::Term, context, term);\n",
  "    let closure_2 = _terminal(b'*');\n",
  "    let closure_3 = _sequence(&closure_1, &closure_2);\n",
  "    let closure_4 = _var_name(user_state, Rules::Power_expr, context, power_expr);\n",
  "    let closure_5 = _sequence(&closure_3, &closure_4);\n",
  "    closure_5(parent, source, position)\n",
  "}\n",
  "#[allow(dead_code)]\n",
  "pub fn division<T: Context>(\n",
  "    user_state: &RefCell<UserState>,\n",
  "    parent: Key,\n",
  "    context: &RefCell<T>,\n",
  "    source: &Source,\n",
  "    position: u32,\n",
  ") -> (bool, u32) {\n",
  "    let involved_set: Vec<Rules> = [Rules::Division, Rules::Multiplication, Rules::Term].to_vec();\n",
  "    let closure_1 =\n",
  "        _var_name_indirect_left_recursion(user_state, &involved_set, Rules::Term, context, term);\n",
  "    let closure_2 = _terminal(b'/');\n",
  "    let closure_3 = _sequence(&closure_1, &closure_2);\n",
  "    let closure_4 = _var_name(user_state, Rules::Power_expr, context, power_expr);\n",
  "    let closure_5 = _sequence(&closure_3, &closure_4);\n",
  "    closure_5(parent, source, position)\n",
  "}\n",
  "#[allow(dead_code)]\n",
  "pub fn parentheses<T: Context>(\n",
  "    user_state: &RefCell<UserState>,\n",
  "    parent: Key,\n",
  "    context: &RefCell<T>,\n",
  "    source: &Source,\n",
  "    position: u32,\n",
  ") -> (bool, u32) {\n",
  "    let closure_1 = _terminal(b'(');\n",
  "    let involved_set: Vec<Rules> = [Rules::Addition, Rules::Expr, Rules::Subtraction].to_vec();\n",
  "    let closure_2 =\n",
  "        _var_name_indirect_left_recursion(user_state, &involved_set, Rules::Expr, context, expr);\n",
  "    let closure_3 = _sequence(&closure_1, &closure_2);\n",
  "    let closure_4 = _terminal(b')');\n",
  "    let closure_5 = _sequence(&closure_3, &closure_4);\n",
  "    closure_5(parent, source, position)\n",
  "}\n",
  "#[allow(dead_code)]\n",
  "pub fn power<T: Context>(\n",
  "    user_state: &RefCell<UserState>,\n",
  "    parent: Key,\n",
  "    context: &RefCell<T>,\n",
  "    source: &Source,\n",
  "    position: u32,\n",
  ") -> (bool, u32) {\n",
  "    let closure_1 = _var_name(user_state, Rules::Factor, context, factor);\n",
  "    let closure_2 = _terminal(b'^');\n",
  "    let closure_3 = _sequence(&closure_1, &closure_2);\n",
  "    let closure_4 = _var_name(user_state, Rules::Power_expr, context, power_expr);\n",
  "    let closure_5 = _sequence(&closure_3, &closure_4);\n",
  "    closure_5(parent, source, position)\n",
  "}\n",
  "#[allow(dead_code)]\n",
  "pub fn expr<T: Context>(\n",
  "    user_state: &RefCell<UserState>,\n",
  "    parent: Key,\n",
  "    context: &RefCell<T>,\n",
  "    source: &Source,\n",
  "    position: u32,\n",
  ") -> (bool, u32) {\n",
  "    let involved_set: Vec<Rules> = [Rules::Addition, Rules::Expr, Rules::Subtraction].to_vec();\n",
  "    let closure_1 = _var_name_indirect_left_recursion(\n",
  "        user_state,\n",
  "        &involved_set,\n",
  "        Rules::Addition,\n",
  "        context,\n",
  "        addition,\n",
  "    );\n",
  "    let involved_set: Vec<Rules> = [Rules::Addition, Rules::Expr, Rules::Subtraction].to_vec();\n",
  "    let closure_2 = _var_name_indirect_left_recursion(\n",
  "        user_state,\n",
  "        &involved_set,\n",
  "        Rules::Subtraction,\n",
  "        context,\n",
  "        subtraction,\n",
  "    );\n",
  "    let closure_3 = _ordered_choice(&closure_1, &closure_2);\n",
  "    let involved_set: Vec<Rules> = [Rules::Division, Rules::Multiplication, Rules::Term].to_vec();\n",
  "    let closure_4 =\n",
  "        _var_name_indirect_left_recursion(user_state, &involved_set, Rules::Term, context, term);\n",
  "    let closure_5 = _ordered_choice(&closure_3, &closure_4);\n",
  "    closure_5(parent, source, position)\n",
  "}\n",
  "#[allow(dead_code)]\n",
  "pub fn term<T: Context>(\n",
  "    user_state: &RefCell<UserState>,\n",
  "    parent: Key,\n",
  "    context: &RefCell<T>,\n",
  "    source: &Source,\n",
  "    position: u32,\n",
  ") -> (bool, u32) {\n",
  "    let involved_set: Vec<Rules> = [Rules::Division, Rules::Multiplication, Rules::Term].to_vec();\n",
  "    let closure_1 = _var_name_indirect_left_recursion(\n",
  "        user_state,\n",
  "        &involved_set,\n",
  "        Rules::Multiplication,\n",
  "        context,\n",
  "        multiplication,\n",
  "    );\n",
  "    let involved_set: Vec<Rules> = [Rules::Division, Rules::Multiplication, Rules::Term].to_vec();\n",
  "    let closure_2 = _var_name_indirect_left_recursion(\n",
  "        user_state,\n",
  "        &involved_set,\n",
  "        Rules::Division,\n",
  "        context,\n",
  "        division,\n",
  "    );\n",
  "    let closure_3 = _ordered_choice(&closure_1, &closure_2);\n",
  "    let closure_4 = _var_name(user_state, Rules::Power_expr, context, power_expr);\n",
  "    let closure_5 = _ordered_choice(&closure_3, &closure_4);\n",
  "    closure_5(parent, source, position)\n",
  "}\n",
  "#[allow(dead_code)]\n",
  "pub fn power_expr<T: Context>(\n",
  "    user_state: &RefCell<UserState>,\n",
  "    parent: Key,\n",
  "    context: &RefCell<T>,\n",
  "    source: &Source,\n",
  "    position: u32,\n",
  ") -> (bool, u32) {\n",
  "    let closure_1 = _var_name(user_state, Rules::Power, context, power);\n",
  "    let closure_2 = _var_name(user_state, Rules::Factor, context, factor);\n",
  "    let closure_3 = _ordered_choice(&closure_1, &closure_2);\n",
  "    closure_3(parent, source, position)\n",
  "}\n",
  "#[allow(dead_code)]\n",
  "pub fn factor<T: Context>(\n",
  "    user_state: &RefCell<UserState>,\n",
  "    parent: Key,\n",
  "    context: &RefCell<T>,\n",
  "    source: &Source,\n",
  "    position: u32,\n",
  ") -> (bool, u32) {\n",
  "    let closure_1 = _var_name(user_state, Rules::Parentheses, context, parentheses);\n",
  "    let closure_2 = _var_name(user_state, Rules::Number, context, number);\n",
  "    let closure_3 = _ordered_choice(&closure_1, &closure_2);\n",
  "    closure_3(parent, source, position)\n",
  "}\n",
  "#[allow(dead_code)]\n",
  "pub fn grammar<T: Context>(\n",
  "    user_state: &RefCell<UserState>,\n",
  "    parent: Key,\n",
  "    context: &RefCell<T>,\n",
  "    source: &Source,\n",
  "    position: u32,\n",
  ") -> (bool, u32) {\n",
  "    let involved_set: Vec<Rules> = [Rules::Addition, Rules::Expr, Rules::Subtraction].to_vec();\n",
  "    let closure_1 =\n",
  "        _var_name_indirect_left_recursion(user_state, &involved_set, Rules::Expr, context, expr);\n",
  "    closure_1(parent, source, position)\n",
  "}\n"]

/-- examples/example_4_full_maths_parser/src/rules.rs:1-34 -/
def ex4Rules : List String := [
  "#![allow(non_camel_case_types)] // Again due to generation -> Might solve eventually\n",
  "use num_derive::FromPrimitive;\n",
  "impl From<u32> for Rules {\n",
  "    fn from(i: u32) -> Rules {\n",
  "        let element = num::FromPrimitive::from_u32(i);\n",
  "        match element {\n",
  "            Some(rule) => rule,\n",
  "            None => panic!(\"Not a valid Rule\"),\n",
  "        }\n",
  "    }\n",
  "}\n",
  "#[allow(dead_code)]\n",
  "pub static RULES_SIZE: u32 = 16;\n",
  "#[allow(clippy::upper_case_acronyms)] // Again due to generation -> Might solve eventually\n",
  "#[derive(PartialEq, Eq, Hash, FromPrimitive, Clone, Copy, Debug, Ord, PartialOrd)]\n",
  "\n",
  "pub enum Rules {\n",
  "    Grammar,\n",
  "    Addition,\n",
  "    Division,\n",
  "    Exponent,\n",
  "    Expr,\n",
  "    Factor,\n",
  "    Fraction,\n",
  "    Integer,\n",
  "    Multiplication,\n",
  "    Number,\n",
  "    Parentheses,\n",
  "    Power,\n",
  "    Power_expr,\n",
  "    Sign,\n",
  "    Subtraction,\n",
  "    Term,\n",
  "}\n"]

/-- examples/example_5_lr_num_parser/src/parser.rs:1-51 -/
def ex5Parser : List String := [
  "#![allow(non_camel_case_types)] // Generated Code kinda annoying to deal with so w/e\n",
  "#![allow(unused_variables)] // Generated Code also, since everything passes stuff\n",
  "#![allow(unused_imports)] // Generated Code also, since everything passes stuff\n",
  "use crate::*;\n",
  "use std::cell::RefCell;\n",
  "#[allow(dead_code)]\n",
  "pub fn num<T: Context>(\n",
  "    user_state: &RefCell<UserState>,\n",
  "    parent: Key,\n",
  "    context: &RefCell<T>,\n",
  "    source: &Source,\n",
  "    position: u32,\n",
  ") -> (bool, u32) {\n",
  "    let closure_1 = _ordered_choice_match_range(48, 57);\n",
  "    closure_1(parent, source, position)\n",
  "}\n",
  "#[allow(dead_code)]\n",
  "pub fn expr<T: Context>(\n",
  "    user_state: &RefCell<UserState>,\n",
  "    parent: Key,\n",
  "    context: &RefCell<T>,\n",
  "    source: &Source,\n",
  "    position: u32,\n",
  ") -> (bool, u32) {\n",
  "    // Should match 0-0-0-0-0-0-0-0 etc\n",
  "\n",
  "    let involved_set: Vec<Rules> = [Rules::Expr].to_vec();\n",
  "    let closure_1 =\n",
  "        _var_name_indirect_left_recursion(user_state, &involved_set, Rules::Expr, context, expr);\n",
  "    let closure_2 = _terminal(b'-');\n",
  "    let closure_3 = _sequence(&closure_1, &closure_2);\n",
  "    let closure_4 = _var_name(user_state, Rules::Num, context, num);\n",
  "    let closure_5 = _sequence(&closure_3, &closure_4);\n",
  "    let closure_6 = _subexpression(&closure_5);\n",
  "    let closure_7 = _var_name(user_state, Rules::Num, context, num);\n",
  "    let closure_8 = _ordered_choice(&closure_6, &closure_7);\n",
  "    closure_8(parent, source, position)\n",
  "}\n",
  "#[allow(dead_code)]\n",
  "pub fn grammar<T: Context>(\n",
  "    user_state: &RefCell<UserState>,\n",
  "    parent: Key,\n",
  "    context: &RefCell<T>,\n",
  "    source: &Source,\n",
  "    position: u32,\n",
  ") -> (bool, u32) {\n",
  "    let involved_set: Vec<Rules> = [Rules::Expr].to_vec();\n",
  "    let closure_1 =\n",
  "        _var_name_indirect_left_recursion(user_state, &involved_set, Rules::Expr, context, expr);\n",
  "    closure_1(parent, source, position)\n",
  "}\n"]

/-- examples/example_5_lr_num_parser/src/rules.rs:1-21 -/
def ex5Rules : List String := [
  "#![allow(non_camel_case_types)] // Again due to generation -> Might solve eventually\n",
  "use num_derive::FromPrimitive;\n",
  "impl From<u32> for Rules {\n",
  "    fn from(i: u32) -> Rules {\n",
  "        let element = num::FromPrimitive::from_u32(i);\n",
  "        match element {\n",
  "            Some(rule) => rule,\n",
  "            None => panic!(\"Not a valid Rule\"),\n",
  "        }\n",
  "    }\n",
  "}\n",
  "#[allow(dead_code)]\n",
  "pub static RULES_SIZE: u32 = 3;\n",
  "#[allow(clippy::upper_case_acronyms)] // Again due to generation -> Might solve eventually\n",
  "#[derive(PartialEq, Eq, Hash, FromPrimitive, Clone, Copy, Debug, Ord, PartialOrd)]\n",
  "\n",
  "pub enum Rules {\n",
  "    Grammar,\n",
  "    Expr,\n",
  "    Num,\n",
  "}\n"]

/-- examples/example_6_term_and_fact_parser/src/parser.rs:1-93 -/
def ex6Parser : List String := [
  "#![allow(non_camel_case_types)] // Generated Code kinda annoying to deal with so w/e\n",
  "#![allow(unused_variables)] // Generated Code also, since everything passes stuff\n",
  "#![allow(unused_imports)] // Generated Code also, since everything passes stuff\n",
  "use crate::*;\n",
  "use std::cell::RefCell;\n",
  "#[allow(dead_code)]\n",
  "pub fn num<T: Context>(\n",
  "    user_state: &RefCell<UserState>,\n",
  "    parent: Key,\n",
  "    context: &RefCell<T>,\n",
  "    source: &Source,\n",
  "    position: u32,\n",
  ") -> (bool, u32) {\n",
  "    let closure_1 = _ordered_choice_match_range(48, 57);\n",
  "    closure_1(parent, source, position)\n",
  "}\n",
  "#[allow(dead_code)]\n",
  "pub fn term<T: Context>(\n",
  "    user_state: &RefCell<UserState>,\n",
  "    parent: Key,\n",
  "    context: &RefCell<T>,\n",
  "    source: &Source,\n",
  "    position: u32,\n",
  ") -> (bool, u32) {\n",
  "    let involved_set: Vec<Rules> = [Rules::Term].to_vec();\n",
  "    let closure_1 =\n",
  "        _var_name_indirect_left_recursion(user_state, &involved_set, Rules::Term, context, term);\n",
  "    let closure_2 = _terminal(b'+');\n",
  "    let closure_3 = _sequence(&closure_1, &closure_2);\n",
  "    let involved_set: Vec<Rules> = [Rules::Fact].to_vec();\n",
  "    let closure_4 =\n",
  "        _var_name_indirect_left_recursion(user_state, &involved_set, Rules::Fact, context, fact);\n",
  "    let closure_5 = _sequence(&closure_3, &closure_4);\n",
  "    let closure_6 = _subexpression(&closure_5);\n",
  "    let involved_set: Vec<Rules> = [Rules::Term].to_vec();\n",
  "    let closure_7 =\n",
  "        _var_name_indirect_left_recursion(user_state, &involved_set, Rules::Term, context, term);\n",
  "    let closure_8 = _terminal(b'-');\n",
  "    let closure_9 = _sequence(&closure_7, &closure_8);\n",
  "    let involved_set: Vec<Rules> = [Rules::Fact].to_vec();\n",
  "    let closure_10 =\n",
  "        _var_name_indirect_left_recursion(user_state, &involved_set, Rules::Fact, context, fact);\n",
  "    let closure_11 = _sequence(&closure_9, &closure_10);\n",
  "    let closure_12 = _subexpression(&closure_11);\n",
  "    let closure_13 = _ordered_choice(&closure_6, &closure_12);\n",
  "    let involved_set: Vec<Rules> = [Rules::Fact].to_vec();\n",
  "    let closure_14 =\n",
  "        _var_name_indirect_left_recursion(user_state, &involved_set, Rules::Fact, context, fact);\n",
  "    let closure_15 = _ordered_choice(&closure_13, &closure_14);\n",
  "    closure_15(parent, source, position)\n",
  "}\n",
  "#[allow(dead_code)]\n",
  "pub fn fact<T: Context>(\n",
  "    user_state: &RefCell<UserState>,\n",
  "    parent: Key,\n",
  "    context: &RefCell<T>,\n",
  "    source: &Source,\n",
  "    position: u32,\n",
  ") -> (bool, u32) {\n",
  "    let involved_set: Vec<Rules> = [Rules::Fact].to_vec();\n",
  "    let closure_1 =\n",
  "        _var_name_indirect_left_recursion(user_state, &involved_set, Rules::Fact, context, fact);\n",
  "    let closure_2 = _terminal(b'*');\n",
  "    let closure_3 = _sequence(&closure_1, &closure_2);\n",
  "    let closure_4 = _var_name(user_state, Rules::Num, context, num);\n",
  "    let closure_5 = _sequence(&closure_3, &closure_4);\n",
  "    let closure_6 = _subexpression(&closure_5);\n",
  "    let involved_set: Vec<Rules> = [Rules::Fact].to_vec();\n",
  "    let closure_7 =\n",
  "        _var_name_indirect_left_recursion(user_state, &involved_set, Rules::Fact, context, fact);\n",
  "    let closure_8 = _terminal(b'/');\n",
  "    let closure_9 = _sequence(&closure_7, &closure_8);\n",
  "    let closure_10 = _var_name(user_state, Rules::Num, context, num);\n",
  "    let closure_11 = _sequence(&closure_9, &closure_10);\n",
  "    let closure_12 = _subexpression(&closure_11);\n",
  "    let closure_13 = _ordered_choice(&closure_6, &closure_12);\n",
  "    let closure_14 = _var_name(user_state, Rules::Num, context, num);\n",
  "    let closure_15 = _ordered_choice(&closure_13, &closure_14);\n",
  "    closure_15(parent, source, position)\n",
  "}\n",
  "#[allow(dead_code)]\n",
  "pub fn grammar<T: Context>(\n",
  "    user_state: &RefCell<UserState>,\n",
  "    parent: Key,\n",
  "    context: &RefCell<T>,\n",
  "    source: &Source,\n",
  "    position: u32,\n",
  ") -> (bool, u32) {\n",
  "    let involved_set: Vec<Rules> = [Rules::Term].to_vec();\n",
  "    let closure_1 =\n",
  "        _var_name_indirect_left_recursion(user_state, &involved_set, Rules::Term, context, term);\n",
  "    closure_1(parent, source, position)\n",
  "}\n"]

/-- examples/example_6_term_and_fact_parser/src/rules.rs:1-22 -/
def ex6Rules : List String := [
  "#![allow(non_camel_case_types)] // Again due to generation -> Might solve eventually\n",
  "use num_derive::FromPrimitive;\n",
  "impl From<u32> for Rules {\n",
  "    fn from(i: u32) -> Rules {\n",
  "        let element = num::FromPrimitive::from_u32(i);\n",
  "        match element {\n",
  "            Some(rule) => rule,\n",
  "            None => panic!(\"Not a valid Rule\"),\n",
  "        }\n",
  "    }\n",
  "}\n",
  "#[allow(dead_code)]\n",
  "pub static RULES_SIZE: u32 = 4;\n",
  "#[allow(clippy::upper_case_acronyms)] // Again due to generation -> Might solve eventually\n",
  "#[derive(PartialEq, Eq, Hash, FromPrimitive, Clone, Copy, Debug, Ord, PartialOrd)]\n",
  "\n",
  "pub enum Rules {\n",
  "    Grammar,\n",
  "    Fact,\n",
  "    Num,\n",
  "    Term,\n",
  "}\n"]

/-- examples/example_7_indirect_lr_num_parser/src/parser.rs:1-69 -/
def ex7Parser : List String := [
  "#![allow(non_camel_case_types)] // Generated Code kinda annoying to deal with so w/e\n",
  "#![allow(unused_variables)] // Generated Code also, since everything passes stuff\n",
  "#![allow(unused_imports)] // Generated Code also, since everything passes stuff\n",
  "use crate::*;\n",
  "use std::cell::RefCell;\n",
  "#[allow(dead_code)]\n",
  "pub fn num<T: Context>(\n",
  "    user_state: &RefCell<UserState>,\n",
  "    parent: Key,\n",
  "    context: &RefCell<T>,\n",
  "    source: &Source,\n",
  "    position: u32,\n",
  ") -> (bool, u32) {\n",
  "    let closure_1 = _ordered_choice_match_range(48, 57);\n",
  "    closure_1(parent, source, position)\n",
  "}\n",
  "#[allow(dead_code)]\n",
  "pub fn intermediate<T: Context>(\n",
  "    user_state: &RefCell<UserState>,\n",
  "    parent: Key,\n",
  "    context: &RefCell<T>,\n",
  "    source: &Source,\n",
  "    position: u32,\n",
  ") -> (bool, u32) {\n",
  "    let involved_set: Vec<Rules> = [Rules::Expr, Rules::Intermediate].to_vec();\n",
  "    let closure_1 =\n",
  "        _var_name_indirect_left_recursion(user_state, &involved_set, Rules::Expr, context, expr);\n",
  "    closure_1(parent, source, position)\n",
  "}\n",
  "#[allow(dead_code)]\n",
  "pub fn expr<T: Context>(\n",
  "    user_state: &RefCell<UserState>,\n",
  "    parent: Key,\n",
  "    context: &RefCell<T>,\n",
  "    source: &Source,\n",
  "    position: u32,\n",
  ") -> (bool, u32) {\n",
  "    // Should match 0-0-0-0-0-0-0-0 etc\n",
  "\n",
  "    let involved_set: Vec<Rules> = [Rules::Expr, Rules::Intermediate].to_vec();\n",
  "    let closure_1 = _var_name_indirect_left_recursion(\n",
  "        user_state,\n",
  "        &involved_set,\n",
  "        Rules::Intermediate,\n",
  "        context,\n",
  "        intermediate,\n",
  "    );\n",
  "    let closure_2 = _terminal(b'-');\n",
  "    let closure_3 = _sequence(&closure_1, &closure_2);\n",
  "    let closure_4 = _var_name(user_state, Rules::Num, context, num);\n",
  "    let closure_5 = _sequence(&closure_3, &closure_4);\n",
  "    let closure_6 = _subexpression(&closure_5);\n",
  "    let closure_7 = _var_name(user_state, Rules::Num, context, num);\n",
  "    let closure_8 = _ordered_choice(&closure_6, &closure_7);\n",
  "    closure_8(parent, source, position)\n",
  "}\n",
  "#[allow(dead_code)]\n",
  "pub fn grammar<T: Context>(\n",
  "    user_state: &RefCell<UserState>,\n",
  "    parent: Key,\n",
  "    context: &RefCell<T>,\n",
  "    source: &Source,\n",
  "    position: u32,\n",
  ") -> (bool, u32) {\n",
  "    let involved_set: Vec<Rules> = [Rules::Expr, Rules::Intermediate].to_vec();\n",
  "    let closure_1 =\n",
  "        _var_name_indirect_left_recursion(user_state, &involved_set, Rules::Expr, context, expr);\n",
  "    closure_1(parent, source, position)\n",
  "}\n"]

/-- examples/example_7_indirect_lr_num_parser/src/rules.rs:1-22 -/
def ex7Rules : List String := [
  "#![allow(non_camel_case_types)] // Again due to generation -> Might solve eventually\n",
  "use num_derive::FromPrimitive;\n",
  "impl From<u32> for Rules {\n",
  "    fn from(i: u32) -> Rules {\n",
  "        let element = num::FromPrimitive::from_u32(i);\n",
  "        match element {\n",
  "            Some(rule) => rule,\n",
  "            None => panic!(\"Not a valid Rule\"),\n",
  "        }\n",
  "    }\n",
  "}\n",
  "#[allow(dead_code)]\n",
  "pub static RULES_SIZE: u32 = 4;\n",
  "#[allow(clippy::upper_case_acronyms)] // Again due to generation -> Might solve eventually\n",
  "#[derive(PartialEq, Eq, Hash, FromPrimitive, Clone, Copy, Debug, Ord, PartialOrd)]\n",
  "\n",
  "pub enum Rules {\n",
  "    Grammar,\n",
  "    Expr,\n",
  "    Intermediate,\n",
  "    Num,\n",
  "}\n"]

/-- examples/example_8_indirect_lr_3_level_parser/src/parser.rs:1-126 -/
def ex8Parser : List String := [
  "#![allow(non_camel_case_types)] // Generated Code kinda annoying to deal with so w/e\n",
  "#![allow(unused_variables)] // Generated Code also, since everything passes stuff\n",
  "#![allow(unused_imports)] // Generated Code also, since everything passes stuff\n",
  "use crate::*;\n",
  "use std::cell::RefCell;\n",
  "#[allow(dead_code)]\n",
  "pub fn num<T: Context>(\n",
  "    user_state: &RefCell<UserState>,\n",
  "    parent: Key,\n",
  "    context: &RefCell<T>,\n",
  "    source: &Source,\n",
  "    position: u32,\n",
  ") -> (bool, u32) {\n",
  "    let closure_1 = _ordered_choice_match_range(48, 57);\n",
  "    closure_1(parent, source, position)\n",
  "}\n",
  "#[allow(dead_code)]\n",
  "pub fn test_lr_num<T: Context>(\n",
  "    user_state: &RefCell<UserState>,\n",
  "    parent: Key,\n",
  "    context: &RefCell<T>,\n",
  "    source: &Source,\n",
  "    position: u32,\n",
  ") -> (bool, u32) {\n",
  "    let closure_1 = _var_name(user_state, Rules::Num, context, num);\n",
  "    closure_1(parent, source, position)\n",
  "}\n",
  "#[allow(dead_code)]\n",
  "pub fn test_indirect_three_level_a<T: Context>(\n",
  "    user_state: &RefCell<UserState>,\n",
  "    parent: Key,\n",
  "    context: &RefCell<T>,\n",
  "    source: &Source,\n",
  "    position: u32,\n",
  ") -> (bool, u32) {\n",
  "    let involved_set: Vec<Rules> = [\n",
  "        Rules::Test_indirect_three_level_A,\n",
  "        Rules::Test_indirect_three_level_B,\n",
  "        Rules::Test_indirect_three_level_C,\n",
  "    ]\n",
  "    .to_vec();\n",
  "    let closure_1 = _var_name_indirect_left_recursion(\n",
  "        user_state,\n",
  "        &involved_set,\n",
  "        Rules::Test_indirect_three_level_B,\n",
  "        context,\n",
  "        test_indirect_three_level_b,\n",
  "    );\n",
  "    let closure_2 = _terminal(b'-');\n",
  "    let closure_3 = _sequence(&closure_1, &closure_2);\n",
  "    let closure_4 = _var_name(user_state, Rules::Test_LR_num, context, test_lr_num);\n",
  "    let closure_5 = _sequence(&closure_3, &closure_4);\n",
  "    let closure_6 = _subexpression(&closure_5);\n",
  "    let closure_7 = _var_name(user_state, Rules::Test_LR_num, context, test_lr_num);\n",
  "    let closure_8 = _ordered_choice(&closure_6, &closure_7);\n",
  "    closure_8(parent, source, position)\n",
  "}\n",
  "#[allow(dead_code)]\n",
  "pub fn test_indirect_three_level_b<T: Context>(\n",
  "    user_state: &RefCell<UserState>,\n",
  "    parent: Key,\n",
  "    context: &RefCell<T>,\n",
  "    source: &Source,\n",
  "    position: u32,\n",
  ") -> (bool, u32) {\n",
  "    let involved_set: Vec<Rules> = [\n",
  "        Rules::Test_indirect_three_level_A,\n",
  "        Rules::Test_indirect_three_level_B,\n",
  "        Rules::Test_indirect_three_level_C,\n",
  "    ]\n",
  "    .to_vec();\n",
  "    let closure_1 = _var_name_indirect_left_recursion(\n",
  "        user_state,\n",
  "        &involved_set,\n",
  "        Rules::Test_indirect_three_level_C,\n",
  "        context,\n",
  "        test_indirect_three_level_c,\n",
  "    );\n",
  "    closure_1(parent, source, position)\n",
  "}\n",
  "#[allow(dead_code)]\n",
  "pub fn test_indirect_three_level_c<T: Context>(\n",
  "    user_state: &RefCell<UserState>,\n",
  "    parent: Key,\n",
  "    context: &RefCell<T>,\n",
  "    source: &Source,\n",
  "    position: u32,\n",
  ") -> (bool, u32) {\n",
  "    let involved_set: Vec<Rules> = [\n",
  "        Rules::Test_indirect_three_level_A,\n",
  "        Rules::Test_indirect_three_level_B,\n",
  "        Rules::Test_indirect_three_level_C,\n",
  "    ]\n",
  "    .to_vec();\n",
  "    let closure_1 = _var_name_indirect_left_recursion(\n",
  "        user_state,\n",
  "        &involved_set,\n",
  "        Rules::Test_indirect_three_level_A,\n",
  "        context,\n",
  "        test_indirect_three_level_a,\n",
  "    );\n",
  "    closure_1(parent, source, position)\n",
  "}\n",
  "#[allow(dead_code)]\n",
  "pub fn grammar<T: Context>(\n",
  "    user_state: &RefCell<UserState>,\n",
  "    parent: Key,\n",
  "    context: &RefCell<T>,\n",
  "    source: &Source,\n",
  "    position: u32,\n",
  ") -> (bool, u32) {\n",
  "    let involved_set: Vec<Rules> = [\n",
  "        Rules::Test_indirect_three_level_A,\n",
  "        Rules::Test_indirect_three_level_B,\n",
  "        Rules::Test_indirect_three_level_C,\n",
  "    ]\n",
  "    .to_vec();\n",
  "    let closure_1 = _var_name_indirect_left_recursion(\n",
  "        user_state,\n",
  "        &involved_set,\n",
  "        Rules::Test_indirect_three_level_A,\n",
  "        context,\n",
  "        test_indirect_three_level_a,\n",
  "    );\n",
  "    closure_1(parent, source, position)\n",
  "}\n"]

/-- examples/example_8_indirect_lr_3_level_parser/src/rules.rs:1-24 -/
def ex8Rules : List String := [
  "#![allow(non_camel_case_types)] // Again due to generation -> Might solve eventually\n",
  "use num_derive::FromPrimitive;\n",
  "impl From<u32> for Rules {\n",
  "    fn from(i: u32) -> Rules {\n",
  "        let element = num::FromPrimitive::from_u32(i);\n",
  "        match element {\n",
  "            Some(rule) => rule,\n",
  "            None => panic!(\"Not a valid Rule\"),\n",
  "        }\n",
  "    }\n",
  "}\n",
  "#[allow(dead_code)]\n",
  "pub static RULES_SIZE: u32 = 6;\n",
  "#[allow(clippy::upper_case_acronyms)] // Again due to generation -> Might solve eventually\n",
  "#[derive(PartialEq, Eq, Hash, FromPrimitive, Clone, Copy, Debug, Ord, PartialOrd)]\n",
  "\n",
  "pub enum Rules {\n",
  "    Grammar,\n",
  "    Num,\n",
  "    Test_LR_num,\n",
  "    Test_indirect_three_level_A,\n",
  "    Test_indirect_three_level_B,\n",
  "    Test_indirect_three_level_C,\n",
  "}\n"]

/-- examples/example_9_indirect_lr_5_level_parser/src/parser.rs:1-184 -/
def ex9Parser : List String := [
  "#![allow(non_camel_case_types)] // Generated Code kinda annoying to deal with so w/e\n",
  "#![allow(unused_variables)] // Generated Code also, since everything passes stuff\n",
  "#![allow(unused_imports)] // Generated Code also, since everything passes stuff\n",
  "use crate::*;\n",
  "use std::cell::RefCell;\n",
  "#[allow(dead_code)]\n",
  "pub fn num<T: Context>(\n",
  "    user_state: &RefCell<UserState>,\n",
  "    parent: Key,\n",
  "    context: &RefCell<T>,\n",
  "    source: &Source,\n",
  "    position: u32,\n",
  ") -> (bool, u32) {\n",
  "    let closure_1 = _ordered_choice_match_range(48, 57);\n",
  "    closure_1(parent, source, position)\n",
  "}\n",
  "#[allow(dead_code)]\n",
  "pub fn test_lr_num<T: Context>(\n",
  "    user_state: &RefCell<UserState>,\n",
  "    parent: Key,\n",
  "    context: &RefCell<T>,\n",
  "    source: &Source,\n",
  "    position: u32,\n",
  ") -> (bool, u32) {\n",
  "    let closure_1 = _var_name(user_state, Rules::Num, context, num);\n",
  "    closure_1(parent, source, position)\n",
  "}\n",
  "#[allow(dead_code)]\n",
  "pub fn test_indirect_three_level_a<T: Context>(\n",
  "    user_state: &RefCell<UserState>,\n",
  "    parent: Key,\n",
  "    context: &RefCell<T>,\n",
  "    source: &Source,\n",
  "    position: u32,\n",
  ") -> (bool, u32) {\n",
  "    let involved_set: Vec<Rules> = [\n",
  "        Rules::Test_indirect_three_level_A,\n",
  "        Rules::Test_indirect_three_level_B,\n",
  "        Rules::Test_indirect_three_level_C,\n",
  "        Rules::Test_indirect_three_level_D,\n",
  "        Rules::Test_indirect_three_level_E,\n",
  "    ]\n",
  "    .to_vec();\n",
  "    let closure_1 = _var_name_indirect_left_recursion(\n",
  "        user_state,\n",
  "        &involved_set,\n",
  "        Rules::Test_indirect_three_level_B,\n",
  "        context,\n",
  "        test_indirect_three_level_b,\n",
  "    );\n",
  "    let closure_2 = _terminal(b'-');\n",
  "    let closure_3 = _sequence(&closure_1, &closure_2);\n",
  "    let closure_4 = _var_name(user_state, Rules::Test_LR_num, context, test_lr_num);\n",
  "    let closure_5 = _sequence(&closure_3, &closure_4);\n",
  "    let closure_6 = _subexpression(&closure_5);\n",
  "    let closure_7 = _var_name(user_state, Rules::Test_LR_num, context, test_lr_num);\n",
  "    let closure_8 = _ordered_choice(&closure_6, &closure_7);\n",
  "    closure_8(parent, source, position)\n",
  "}\n",
  "#[allow(dead_code)]\n",
  "pub fn test_indirect_three_level_b<T: Context>(\n",
  "    user_state: &RefCell<UserState>,\n",
  "    parent: Key,\n",
  "    context: &RefCell<T>,\n",
  "    source: &Source,\n",
  "    position: u32,\n",
  ") -> (bool, u32) {\n",
  "    let involved_set: Vec<Rules> = [\n",
  "        Rules::Test_indirect_three_level_A,\n",
  "        Rules::Test_indirect_three_level_B,\n",
  "        Rules::Test_indirect_three_level_C,\n",
  "        Rules::Test_indirect_three_level_D,\n",
  "        Rules::Test_indirect_three_level_E,\n",
  "    ]\n",
  "    .to_vec();\n",
  "    let closure_1 = _var_name_indirect_left_recursion(\n",
  "        user_state,\n",
  "        &involved_set,\n",
  "        Rules::Test_indirect_three_level_C,\n",
  "        context,\n",
  "        test_indirect_three_level_c,\n",
  "    );\n",
  "    closure_1(parent, source, position)\n",
  "}\n",
  "#[allow(dead_code)]\n",
  "pub fn test_indirect_three_level_c<T: Context>(\n",
  "    user_state: &RefCell<UserState>,\n",
  "    parent: Key,\n",
  "    context: &RefCell<T>,\n",
  "    source: &Source,\n",
  "    position: u32,\n",
  ") -> (bool, u32) {\n",
  "    let involved_set: Vec<Rules> = [\n",
  "        Rules::Test_indirect_three_level_A,\n",
  "        Rules::Test_indirect_three_level_B,\n",
  "        Rules::Test_indirect_three_level_C,\n",
  "        Rules::Test_indirect_three_level_D,\n",
  "        Rules::Test_indirect_three_level_E,\n",
  "    ]\n",
  "    .to_vec();\n",
  "    let closure_1 = _var_name_indirect_left_recursion(\n",
  "        user_state,\n",
  "        &involved_set,\n",
  "        Rules::Test_indirect_three_level_D,\n",
  "        context,\n",
  "        test_indirect_three_level_d,\n",
  "    );\n",
  "    closure_1(parent, source, position)\n",
  "}\n",
  "#[allow(dead_code)]\n",
  "pub fn test_indirect_three_level_d<T: Context>(\n",
  "    user_state: &RefCell<UserState>,\n",
  "    parent: Key,\n",
  "    context: &RefCell<T>,\n",
  "    source: &Source,\n",
  "    position: u32,\n",
  ") -> (bool, u32) {\n",
  "    let involved_set: Vec<Rules> = [\n",
  "        Rules::Test_indirect_three_level_A,\n",
  "        Rules::Test_indirect_three_level_B,\n",
  "        Rules::Test_indirect_three_level_C,\n",
  "        Rules::Test_indirect_three_level_D,\n",
  "        Rules::Test_indirect_three_level_E,\n",
  "    ]\n",
  "    .to_vec();\n",
  "    let closure_1 = _var_name_indirect_left_recursion(\n",
  "        user_state,\n",
  "        &involved_set,\n",
  "        Rules::Test_indirect_three_level_E,\n",
  "        context,\n",
  "        test_indirect_three_level_e,\n",
  "    );\n",
  "    closure_1(parent, source, position)\n",
  "}\n",
  "#[allow(dead_code)]\n",
  "pub fn test_indirect_three_level_e<T: Context>(\n",
  "    user_state: &RefCell<UserState>,\n",
  "    parent: Key,\n",
  "    context: &RefCell<T>,\n",
  "    source: &Source,\n",
  "    position: u32,\n",
  ") -> (bool, u32) {\n",
  "    let involved_set: Vec<Rules> = [\n",
  "        Rules::Test_indirect_three_level_A,\n",
  "        Rules::Test_indirect_three_level_B,\n",
  "        Rules::Test_indirect_three_level_C,\n",
  "        Rules::Test_indirect_three_level_D,\n",
  "        Rules::Test_indirect_three_level_E,\n",
  "    ]\n",
  "    .to_vec();\n",
  "    let closure_1 = _var_name_indirect_left_recursion(\n",
  "        user_state,\n",
  "        &involved_set,\n",
  "        Rules::Test_indirect_three_level_A,\n",
  "        context,\n",
  "        test_indirect_three_level_a,\n",
  "    );\n",
  "    closure_1(parent, source, position)\n",
  "}\n",
  "#[allow(dead_code)]\n",
  "pub fn grammar<T: Context>(\n",
  "    user_state: &RefCell<UserState>,\n",
  "    parent: Key,\n",
  "    context: &RefCell<T>,\n",
  "    source: &Source,\n",
  "    position: u32,\n",
  ") -> (bool, u32) {\n",
  "    let involved_set: Vec<Rules> = [\n",
  "        Rules::Test_indirect_three_level_A,\n",
  "        Rules::Test_indirect_three_level_B,\n",
  "        Rules::Test_indirect_three_level_C,\n",
  "        Rules::Test_indirect_three_level_D,\n",
  "        Rules::Test_indirect_three_level_E,\n",
  "    ]\n",
  "    .to_vec();\n",
  "    let closure_1 = _var_name_indirect_left_recursion(\n",
  "        user_state,\n",
  "        &involved_set,\n",
  "        Rules::Test_indirect_three_level_A,\n",
  "        context,\n",
  "        test_indirect_three_level_a,\n",
  "    );\n",
  "    closure_1(parent, source, position)\n",
  "}\n"]

/-- examples/example_9_indirect_lr_5_level_parser/src/rules.rs:1-26 -/
def ex9Rules : List String := [
  "#![allow(non_camel_case_types)] // Again due to generation -> Might solve eventually\n",
  "use num_derive::FromPrimitive;\n",
  "impl From<u32> for Rules {\n",
  "    fn from(i: u32) -> Rules {\n",
  "        let element = num::FromPrimitive::from_u32(i);\n",
  "        match element {\n",
  "            Some(rule) => rule,\n",
  "            None => panic!(\"Not a valid Rule\"),\n",
  "        }\n",
  "    }\n",
  "}\n",
  "#[allow(dead_code)]\n",
  "pub static RULES_SIZE: u32 = 8;\n",
  "#[allow(clippy::upper_case_acronyms)] // Again due to generation -> Might solve eventually\n",
  "#[derive(PartialEq, Eq, Hash, FromPrimitive, Clone, Copy, Debug, Ord, PartialOrd)]\n",
  "\n",
  "pub enum Rules {\n",
  "    Grammar,\n",
  "    Num,\n",
  "    Test_LR_num,\n",
  "    Test_indirect_three_level_A,\n",
  "    Test_indirect_three_level_B,\n",
  "    Test_indirect_three_level_C,\n",
  "    Test_indirect_three_level_D,\n",
  "    Test_indirect_three_level_E,\n",
  "}\n"]

/-- examples/example_10_basic_bench_parser/src/parser.rs:1-56 -/
def ex10Parser : List String := [
  "#![allow(non_camel_case_types)] // Generated Code kinda annoying to deal with so w/e\n",
  "#![allow(unused_variables)] // Generated Code also, since everything passes stuff\n",
  "#![allow(unused_imports)] // Generated Code also, since everything passes stuff\n",
  "use crate::*;\n",
  "use std::cell::RefCell;\n",
  "#[allow(dead_code)]\n",
  "pub fn rr<T: Context>(\n",
  "    user_state: &RefCell<UserState>,\n",
  "    parent: Key,\n",
  "    context: &RefCell<T>,\n",
  "    source: &Source,\n",
  "    position: u32,\n",
  ") -> (bool, u32) {\n",
  "    // rr ::= \"1\" <rr> / \"1\"\n",
  "\n",
  "    let closure_1 = _terminal(b'1');\n",
  "    let closure_2 = _var_name(user_state, Rules::Rr, context, rr);\n",
  "    let closure_3 = _sequence(&closure_1, &closure_2);\n",
  "    let closure_4 = _subexpression(&closure_3);\n",
  "    let closure_5 = _terminal(b'1');\n",
  "    let closure_6 = _ordered_choice(&closure_4, &closure_5);\n",
  "    closure_6(parent, source, position)\n",
  "}\n",
  "#[allow(dead_code)]\n",
  "pub fn lr<T: Context>(\n",
  "    user_state: &RefCell<UserState>,\n",
  "    parent: Key,\n",
  "    context: &RefCell<T>,\n",
  "    source: &Source,\n",
  "    position: u32,\n",
  ") -> (bool, u32) {\n",
  "    // lr ::= <lr> \"1\" / \"1\"\n",
  "\n",
  "    let involved_set: Vec<Rules> = [Rules::Lr].to_vec();\n",
  "    let closure_1 =\n",
  "        _var_name_indirect_left_recursion(user_state, &involved_set, Rules::Lr, context, lr);\n",
  "    let closure_2 = _terminal(b'1');\n",
  "    let closure_3 = _sequence(&closure_1, &closure_2);\n",
  "    let closure_4 = _subexpression(&closure_3);\n",
  "    let closure_5 = _terminal(b'1');\n",
  "    let closure_6 = _ordered_choice(&closure_4, &closure_5);\n",
  "    closure_6(parent, source, position)\n",
  "}\n",
  "#[allow(dead_code)]\n",
  "pub fn grammar<T: Context>(\n",
  "    user_state: &RefCell<UserState>,\n",
  "    parent: Key,\n",
  "    context: &RefCell<T>,\n",
  "    source: &Source,\n",
  "    position: u32,\n",
  ") -> (bool, u32) {\n",
  "    // We do not use grammar for this benchmark but we need one for the generation to work.\n",
  "\n",
  "    let closure_1 = _var_name(user_state, Rules::Rr, context, rr);\n",
  "    closure_1(parent, source, position)\n",
  "}\n"]

/-- examples/example_10_basic_bench_parser/src/rules.rs:1-21 -/
def ex10Rules : List String := [
  "#![allow(non_camel_case_types)] // Again due to generation -> Might solve eventually\n",
  "use num_derive::FromPrimitive;\n",
  "impl From<u32> for Rules {\n",
  "    fn from(i: u32) -> Rules {\n",
  "        let element = num::FromPrimitive::from_u32(i);\n",
  "        match element {\n",
  "            Some(rule) => rule,\n",
  "            None => panic!(\"Not a valid Rule\"),\n",
  "        }\n",
  "    }\n",
  "}\n",
  "#[allow(dead_code)]\n",
  "pub static RULES_SIZE: u32 = 3;\n",
  "#[allow(clippy::upper_case_acronyms)] // Again due to generation -> Might solve eventually\n",
  "#[derive(PartialEq, Eq, Hash, FromPrimitive, Clone, Copy, Debug, Ord, PartialOrd)]\n",
  "\n",
  "pub enum Rules {\n",
  "    Grammar,\n",
  "    Lr,\n",
  "    Rr,\n",
  "}\n"]

/-- examples/example_11_external_rule_call_parser/src/parser.rs:1-58 -/
def ex11Parser : List String := [
  "#![allow(non_camel_case_types)] // Generated Code kinda annoying to deal with so w/e\n",
  "#![allow(unused_variables)] // Generated Code also, since everything passes stuff\n",
  "#![allow(unused_imports)] // Generated Code also, since everything passes stuff\n",
  "use crate::hooked_calls::unique_line_cache;\n",
  "use crate::*;\n",
  "use std::cell::RefCell;\n",
  "#[allow(dead_code)]\n",
  "pub fn alphabet_lower<T: Context>(\n",
  "    user_state: &RefCell<UserState>,\n",
  "    parent: Key,\n",
  "    context: &RefCell<T>,\n",
  "    source: &Source,\n",
  "    position: u32,\n",
  ") -> (bool, u32) {\n",
  "    let closure_1 = _ordered_choice_match_range(97, 122);\n",
  "    closure_1(parent, source, position)\n",
  "}\n",
  "#[allow(dead_code)]\n",
  "pub fn unique_line_matcher<T: Context>(\n",
  "    user_state: &RefCell<UserState>,\n",
  "    parent: Key,\n",
  "    context: &RefCell<T>,\n",
  "    source: &Source,\n",
  "    position: u32,\n",
  ") -> (bool, u32) {\n",
  "    // Trivial context sensitive grammar, any lower case line will be matched but only once.\n",
  "\n",
  "    let closure_1 = move |parent: Key, source: &Source, position: u32| {\n",
  "        alphabet_lower(user_state, parent, context, source, position)\n",
  "    };\n",
  "    let closure_2 = _terminal(b' ');\n",
  "    let closure_3 = _ordered_choice(&closure_1, &closure_2);\n",
  "    let closure_4 = _subexpression(&closure_3);\n",
  "    let closure_5 = _one_or_more(&closure_4);\n",
  "    let closure_6 = _terminal(b'\\n');\n",
  "    let closure_7 = _sequence(&closure_5, &closure_6);\n",
  "    let closure_8 = _subexpression(&closure_7);\n",
  "    let closure_9 = unique_line_cache(user_state, parent, context, source, position, &closure_8);\n",
  "    closure_9(parent, source, position)\n",
  "}\n",
  "#[allow(dead_code)]\n",
  "pub fn grammar<T: Context>(\n",
  "    user_state: &RefCell<UserState>,\n",
  "    parent: Key,\n",
  "    context: &RefCell<T>,\n",
  "    source: &Source,\n",
  "    position: u32,\n",
  ") -> (bool, u32) {\n",
  "    let closure_1 = _var_name(\n",
  "        user_state,\n",
  "        Rules::Unique_line_matcher,\n",
  "        context,\n",
  "        unique_line_matcher,\n",
  "    );\n",
  "    let closure_2 = _subexpression(&closure_1);\n",
  "    let closure_3 = _one_or_more(&closure_2);\n",
  "    closure_3(parent, source, position)\n",
  "}\n"]

/-- examples/example_11_external_rule_call_parser/src/rules.rs:1-20 -/
def ex11Rules : List String := [
  "#![allow(non_camel_case_types)] // Again due to generation -> Might solve eventually\n",
  "use num_derive::FromPrimitive;\n",
  "impl From<u32> for Rules {\n",
  "    fn from(i: u32) -> Rules {\n",
  "        let element = num::FromPrimitive::from_u32(i);\n",
  "        match element {\n",
  "            Some(rule) => rule,\n",
  "            None => panic!(\"Not a valid Rule\"),\n",
  "        }\n",
  "    }\n",
  "}\n",
  "#[allow(dead_code)]\n",
  "pub static RULES_SIZE: u32 = 2;\n",
  "#[allow(clippy::upper_case_acronyms)] // Again due to generation -> Might solve eventually\n",
  "#[derive(PartialEq, Eq, Hash, FromPrimitive, Clone, Copy, Debug, Ord, PartialOrd)]\n",
  "\n",
  "pub enum Rules {\n",
  "    Grammar,\n",
  "    Unique_line_matcher,\n",
  "}\n"]

end PP.Texts
