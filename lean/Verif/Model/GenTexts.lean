import Verif.Model.Gen.Text

/-! Generated by tools/gen2lean.py: the text of the source files of the generator, one string per line. -/
namespace PP.GenTexts

/-- generator/src/binary_wo.rs:1-448 -/
def binaryWo : List String := [
  "#![allow(dead_code)]\n",
  "use core::panic;\n",
  "use parser::Key;\n",
  "\n",
  "#[derive(Debug, Clone)]\n",
  "pub enum Reference {\n",
  "    Terminal(String), // For Terminals\n",
  "    VarName(String),\n",
  "\n",
  "    OneOrMore,\n",
  "    ZeroOrMore,\n",
  "    Optional,\n",
  "    AndPredicate,\n",
  "    NotPredicate,\n",
  "    Subexpression,\n",
  "\n",
  "    OrderedChoice,\n",
  "    Sequence,\n",
  "    Exec,\n",
  "    Null,\n",
  "\n",
  "    OrderedChoiceMatchRange(u32, u32), // Custom Code for optimization purposes\n",
  "    StringTerminal(Vec<char>),\n",
  "    StringTerminalAsciiOpt(Vec<char>),\n",
  "    InlinedRule(String),\n",
  "    LeftRecursiveRule(String, Vec<String>),\n",
  "    HookedCall(String),\n",
  "}\n",
  "\n",
  "pub struct BinaryTreeWO {\n",
  "    nodes: Vec<BinaryNode>,\n",
  "}\n",
  "\n",
  "impl BinaryTreeWO {\n",
  "    pub fn new() -> Self {\n",
  "        let mut tree = BinaryTreeWO {\n",
  "            nodes: Vec::<BinaryNode>::new(),\n",
  "        };\n",
  "        tree.push(Reference::Null, None, None);\n",
  "        tree\n",
  "    }\n",
  "\n",
  "    pub fn push(&mut self, reference: Reference, lhs: Option<Key>, rhs: Option<Key>) -> Key {\n",
  "        let node = BinaryNode {\n",
  "            reference,\n",
  "            lhs,\n",
  "            rhs,\n",
  "        };\n",
  "        let key = Key(self.nodes.len() as u32);\n",
  "\n",
  "        self.nodes.push(node);\n",
  "        key\n",
  "    }\n",
  "\n",
  "    pub fn print(&self, index: Key) {\n",
  "        self.print_kernel(index, 0)\n",
  "    }\n",
  "\n",
  "    fn print_kernel(&self, index: Key, indent: usize) {\n",
  "        let node = &self.nodes[usize::from(index)];\n",
  "        println!(\n",
  "            \"{} Key: {:?}, Reference: {:?}, LHS: {:?}, RHS: {:?}\",\n",
  "            \"    \".repeat(indent),\n",
  "            index,\n",
  "            node.reference,\n",
  "            node.lhs,\n",
  "            node.rhs\n",
  "        );\n",
  "        let child_index = node.lhs;\n",
  "        if let Some(child_index) = child_index {\n",
  "            self.print_kernel(child_index, indent + 1);\n",
  "        }\n",
  "        let child_index = node.rhs;\n",
  "        if let Some(child_index) = child_index {\n",
  "            self.print_kernel(child_index, indent + 1);\n",
  "        }\n",
  "    }\n",
  "\n",
  "    pub fn to_string(&self, index: Key) -> Vec<String> {\n",
  "        let mut stack = Vec::<String>::new();\n",
  "        self.to_string_kernel(&mut stack, index);\n",
  "        stack\n",
  "    }\n",
  "\n",
  "    fn match_ref(&self, stack: &mut Vec<String>, index: Key) -> Key {\n",
  "        let node = &self.nodes[usize::from(index)];\n",
  "        match node.reference {\n",
  "            Reference::AndPredicate => self.and_predicate(stack, index),\n",
  "            Reference::NotPredicate => self.not_predicate(stack, index),\n",
  "            Reference::Optional => self.optional(stack, index),\n",
  "            Reference::OneOrMore => self.one_or_more(stack, index),\n",
  "            Reference::ZeroOrMore => self.zero_or_more(stack, index),\n",
  "            Reference::Subexpression => self.subexpression(stack, index),\n",
  "\n",
  "            Reference::OrderedChoice => self.ordered_choice(stack, index),\n",
  "            Reference::Sequence => self.sequence(stack, index),\n",
  "\n",
  "            Reference::Terminal(_) => self.terminal(stack, index),\n",
  "            Reference::VarName(_) => self.var_name(stack, index),\n",
  "            Reference::OrderedChoiceMatchRange(_, _) => {\n",
  "                self.ordered_choice_match_range(stack, index)\n",
  "            }\n",
  "            Reference::StringTerminal(_) => self.string_terminal(stack, index),\n",
  "            Reference::StringTerminalAsciiOpt(_) => self.string_terminal_ascii_opt(stack, index),\n",
  "            Reference::InlinedRule(_) => self.inlined_rule(stack, index),\n",
  "            Reference::LeftRecursiveRule(..) => self.left_recursive_rule(stack, index),\n",
  "            Reference::HookedCall(_) => self.hooked_call(stack, index),\n",
  "            Reference::Exec | Reference::Null => {\n",
  "                panic!(\"Exec should only exist once and NULL should never exist\")\n",
  "            }\n",
  "        }\n",
  "    }\n",
  "\n",
  "    fn to_string_kernel(&self, stack: &mut Vec<String>, index: Key) -> Key {\n",
  "        let node = &self.nodes[usize::from(index)];\n",
  "\n",
  "        match node.reference {\n",
  "            Reference::Exec => {\n",
  "                let child_index = node.lhs.expect(\"Should always have child\");\n",
  "                let key = self.match_ref(stack, child_index);\n",
  "                stack.push(format!(\"closure_{}(parent, source, position)\", key.0));\n",
  "                key\n",
  "            }\n",
  "\n",
  "            _ => panic!(\"Invalid Key Index. Must be Exec\"),\n",
  "        }\n",
  "    }\n",
  "\n",
  "    fn string_terminal(&self, stack: &mut Vec<String>, index: Key) -> Key {\n",
  "        let node = &self.nodes[usize::from(index)];\n",
  "        match &node.reference {\n",
  "            Reference::StringTerminal(chars) => {\n",
  "                stack.push(format!(\n",
  "                    \"let closure_{:?} = _string_terminal(&{:?});\",\n",
  "                    index.0, chars\n",
  "                ));\n",
  "                index\n",
  "            }\n",
  "            _ => {\n",
  "                panic!(\"Shouldn't happen string terminal\")\n",
  "            }\n",
  "        }\n",
  "    }\n",
  "\n",
  "    fn string_terminal_ascii_opt(&self, stack: &mut Vec<String>, index: Key) -> Key {\n",
  "        let node = &self.nodes[usize::from(index)];\n",
  "        match &node.reference {\n",
  "            Reference::StringTerminalAsciiOpt(chars) => {\n",
  "                let mut r: String = format!(\n",
  "                    r#\"let closure_{:?} = _string_terminal_opt_ascii(b\"\"#,\n",
  "                    index.0\n",
  "                );\n",
  "\n",
  "                for i in chars {\n",
  "                    r.push_str(&format!(\"{i}\"))\n",
  "                }\n",
  "                r.push_str(r#\"\");\"#);\n",
  "                stack.push(r);\n",
  "                index\n",
  "            }\n",
  "            _ => {\n",
  "                panic!(\"Shouldn't happen ascii opt string terminal\")\n",
  "            }\n",
  "        }\n",
  "    }\n",
  "\n",
  "    fn ordered_choice_match_range(&self, stack: &mut Vec<String>, index: Key) -> Key {\n",
  "        let node = &self.nodes[usize::from(index)];\n",
  "        match &node.reference {\n",
  "            Reference::OrderedChoiceMatchRange(start, end) => {\n",
  "                stack.push(format!(\n",
  "                    \"let closure_{:?} = _ordered_choice_match_range({}, {});\",\n",
  "                    index.0, start, end\n",
  "                ));\n",
  "                index\n",
  "            }\n",
  "            _ => {\n",
  "                panic!(\"Shouldn't happen\")\n",
  "            }\n",
  "        }\n",
  "    }\n",
  "\n",
  "    fn and_predicate(&self, stack: &mut Vec<String>, index: Key) -> Key {\n",
  "        {\n",
  "            let node = &self.nodes[usize::from(index)];\n",
  "            let key1 = self.match_ref(stack, node.lhs.expect(\"Should always have a left node\"));\n",
  "            match node.reference {\n",
  "                Reference::AndPredicate => {\n",
  "                    stack.push(format!(\n",
  "                        \"let closure_{:?} = _and_predicate(&closure_{:?});\",\n",
  "                        index.0, key1.0\n",
  "                    ));\n",
  "                    index\n",
  "                }\n",
  "                _ => {\n",
  "                    panic!(\"Shouldn't happen\")\n",
  "                }\n",
  "            }\n",
  "        }\n",
  "    }\n",
  "    fn not_predicate(&self, stack: &mut Vec<String>, index: Key) -> Key {\n",
  "        let node = &self.nodes[usize::from(index)];\n",
  "        let key1 = self.match_ref(stack, node.lhs.expect(\"Should always have a left node\"));\n",
  "        match node.reference {\n",
  "            Reference::NotPredicate => {\n",
  "                stack.push(format!(\n",
  "                    \"let closure_{:?} = _not_predicate(&closure_{:?});\",\n",
  "                    index.0, key1.0\n",
  "                ));\n",
  "                index\n",
  "            }\n",
  "            _ => {\n",
  "                panic!(\"Shouldn't happen\")\n",
  "            }\n",
  "        }\n",
  "    }\n",
  "\n",
  "    fn one_or_more(&self, stack: &mut Vec<String>, index: Key) -> Key {\n",
  "        let node = &self.nodes[usize::from(index)];\n",
  "        let key1 = self.match_ref(stack, node.lhs.expect(\"Should always have a left node\"));\n",
  "        match node.reference {\n",
  "            Reference::OneOrMore => {\n",
  "                stack.push(format!(\n",
  "                    \"let closure_{:?} = _one_or_more(&closure_{:?});\",\n",
  "                    index.0, key1.0\n",
  "                ));\n",
  "                index\n",
  "            }\n",
  "            _ => {\n",
  "                panic!(\"Shouldn't happen\")\n",
  "            }\n",
  "        }\n",
  "    }\n",
  "    fn zero_or_more(&self, stack: &mut Vec<String>, index: Key) -> Key {\n",
  "        let node = &self.nodes[usize::from(index)];\n",
  "        let key1 = self.match_ref(stack, node.lhs.expect(\"Should always have a left node\"));\n",
  "        match node.reference {\n",
  "            Reference::ZeroOrMore => {\n",
  "                stack.push(format!(\n",
  "                    \"let closure_{:?} = _zero_or_more(&closure_{:?});\",\n",
  "                    index.0, key1.0\n",
  "                ));\n",
  "                index\n",
  "            }\n",
  "            _ => {\n",
  "                panic!(\"Shouldn't happen\")\n",
  "            }\n",
  "        }\n",
  "    }\n",
  "\n",
  "    fn hooked_call(&self, stack: &mut Vec<String>, index: Key) -> Key {\n",
  "        let node = &self.nodes[usize::from(index)];\n",
  "        let key1 = self.match_ref(stack, node.lhs.expect(\"Should always have a left node\"));\n",
  "        match &node.reference {\n",
  "            Reference::HookedCall(var_name) => {\n",
  "                stack.push(format!(\n",
  "                    \"let closure_{:?} = {var_name}(user_state, parent, context, source, position, &closure_{:?});\",\n",
  "                    index.0, key1.0\n",
  "                ));\n",
  "                index\n",
  "            }\n",
  "            _ => {\n",
  "                panic!(\"Shouldn't happen\")\n",
  "            }\n",
  "        }\n",
  "    }\n",
  "    fn subexpression(&self, stack: &mut Vec<String>, index: Key) -> Key {\n",
  "        let node = &self.nodes[usize::from(index)];\n",
  "        let key1 = self.match_ref(stack, node.lhs.expect(\"Should always have a left node\"));\n",
  "        match node.reference {\n",
  "            Reference::Subexpression => {\n",
  "                stack.push(format!(\n",
  "                    \"let closure_{:?} = _subexpression(&closure_{:?});\",\n",
  "                    index.0, key1.0\n",
  "                ));\n",
  "                index\n",
  "            }\n",
  "            _ => {\n",
  "                panic!(\"Shouldn't happen\")\n",
  "            }\n",
  "        }\n",
  "    }\n",
  "    fn optional(&self, stack: &mut Vec<String>, index: Key) -> Key {\n",
  "        let node = &self.nodes[usize::from(index)];\n",
  "        let key1 = self.match_ref(stack, node.lhs.expect(\"Should always have a left node\"));\n",
  "        match node.reference {\n",
  "            Reference::Optional => {\n",
  "                stack.push(format!(\n",
  "                    \"let closure_{:?} = _optional(&closure_{:?});\",\n",
  "                    index.0, key1.0\n",
  "                ));\n",
  "                index\n",
  "            }\n",
  "            _ => {\n",
  "                panic!(\"Shouldn't happen\")\n",
  "            }\n",
  "        }\n",
  "    }\n",
  "\n",
  "    fn ordered_choice(&self, stack: &mut Vec<String>, index: Key) -> Key {\n",
  "        let node = &self.nodes[usize::from(index)];\n",
  "        let key1 = self.match_ref(stack, node.lhs.expect(\"Should always have a left node\"));\n",
  "        let key2 = self.match_ref(stack, node.rhs.expect(\"Should always have a right node\"));\n",
  "        match node.reference {\n",
  "            Reference::OrderedChoice => {\n",
  "                stack.push(format!(\n",
  "                    \"let closure_{:?} = _ordered_choice(&closure_{:?}, &closure_{:?});\",\n",
  "                    index.0, key1.0, key2.0\n",
  "                ));\n",
  "                index\n",
  "            }\n",
  "            _ => {\n",
  "                panic!(\"Shouldn't happen\")\n",
  "            }\n",
  "        }\n",
  "    }\n",
  "\n",
  "    fn sequence(&self, stack: &mut Vec<String>, index: Key) -> Key {\n",
  "        let node = &self.nodes[usize::from(index)];\n",
  "        let key1 = self.match_ref(stack, node.lhs.expect(\"Should always have a left node\"));\n",
  "        let key2 = self.match_ref(stack, node.rhs.expect(\"Should always have a right node\"));\n",
  "        match node.reference {\n",
  "            Reference::Sequence => {\n",
  "                stack.push(format!(\n",
  "                    \"let closure_{:?} = _sequence(&closure_{:?}, &closure_{:?});\",\n",
  "                    index.0, key1.0, key2.0\n",
  "                ));\n",
  "                index\n",
  "            }\n",
  "            _ => {\n",
  "                panic!(\"Shouldn't happen\")\n",
  "            }\n",
  "        }\n",
  "    }\n",
  "    fn terminal(&self, stack: &mut Vec<String>, index: Key) -> Key {\n",
  "        let node = &self.nodes[usize::from(index)];\n",
  "        match &node.reference {\n",
  "            Reference::Terminal(content) => {\n",
  "                stack.push(format!(\n",
  "                    \"let closure_{:?} = _terminal(b'{}');\",\n",
  "                    index.0, content\n",
  "                ));\n",
  "                index\n",
  "            }\n",
  "            _ => {\n",
  "                panic!(\"Shouldn't happen\")\n",
  "            }\n",
  "        }\n",
  "    }\n",
  "    fn var_name(&self, stack: &mut Vec<String>, index: Key) -> Key {\n",
  "        let node = &self.nodes[usize::from(index)];\n",
  "        match &node.reference {\n",
  "            Reference::VarName(content) => {\n",
  "                let rule_str = |rule_name: String| {\n",
  "                    let start_char = rule_name.chars().nth(0).expect(\"Should exist\");\n",
  "                    let start_char = start_char.to_uppercase().to_string();\n",
  "                    let rule_name = start_char + rule_name.split_at_checked(1).unwrap().1;\n",
  "                    rule_name\n",
  "                };\n",
  "\n",
  "                let contents = format!(\n",
  "                    \"let closure_{:?} = _var_name(user_state, Rules::{}, context, {});\",\n",
  "                    index.0,\n",
  "                    rule_str(content.to_string()),\n",
  "                    content.to_lowercase()\n",
  "                );\n",
  "                stack.push(contents);\n",
  "                index\n",
  "            }\n",
  "            _ => {\n",
  "                panic!(\"Shouldn't happen\")\n",
  "            }\n",
  "        }\n",
  "    }\n",
  "    fn left_recursive_rule(&self, stack: &mut Vec<String>, index: Key) -> Key {\n",
  "        let node = &self.nodes[usize::from(index)];\n",
  "        match &node.reference {\n",
  "            Reference::LeftRecursiveRule(content, involved_set) => {\n",
  "                let mut contents_involved_set: String;\n",
  "                if involved_set.is_empty() {\n",
  "                    contents_involved_set =\n",
  "                        \"let involved_set: Vec<Rules> = [].to_vec();\".to_string();\n",
  "                } else {\n",
  "                    contents_involved_set = \"let involved_set: Vec<Rules> = [\".to_string();\n",
  "                    for rule in involved_set {\n",
  "                        let rule_str = |rule_name: String| {\n",
  "                            let start_char = rule_name.chars().nth(0).expect(\"Should exist\");\n",
  "                            let start_char = start_char.to_uppercase().to_string();\n",
  "                            let rule_name = start_char + rule_name.split_at_checked(1).unwrap().1;\n",
  "                            rule_name\n",
  "                        };\n",
  "\n",
  "                        contents_involved_set\n",
  "                            .push_str(&format!(\"Rules::{}, \", rule_str(rule.to_string())));\n",
  "                    }\n",
  "                    contents_involved_set.pop(); // Removes last space\n",
  "                    contents_involved_set.pop(); // Removes last comma\n",
  "                    contents_involved_set.push_str(\"].to_vec();\");\n",
  "                }\n",
  "\n",
  "                stack.push(contents_involved_set);\n",
  "\n",
  "                let rule_str = |rule_name: String| {\n",
  "                    let start_char = rule_name.chars().nth(0).expect(\"Should exist\");\n",
  "                    let start_char = start_char.to_uppercase().to_string();\n",
  "                    let rule_name = start_char + rule_name.split_at_checked(1).unwrap().1;\n",
  "                    rule_name\n",
  "                };\n",
  "\n",
  "                let contents = format!(\n",
  "                    \"let closure_{:?} = _var_name_indirect_left_recursion(user_state, &involved_set, Rules::{}, context, {});\",\n",
  "                    index.0,\n",
  "                    rule_str(content.to_string()),\n",
  "                    content.to_lowercase()\n",
  "                );\n",
  "                stack.push(contents);\n",
  "                index\n",
  "            }\n",
  "            _ => {\n",
  "                panic!(\"Shouldn't happen\")\n",
  "            }\n",
  "        }\n",
  "    }\n",
  "\n",
  "    fn inlined_rule(&self, stack: &mut Vec<String>, index: Key) -> Key {\n",
  "        let node = &self.nodes[usize::from(index)];\n",
  "        match &node.reference {\n",
  "            Reference::InlinedRule(content) => {\n",
  "                let contents = format!(\n",
  "                    \"let closure_{} = move |parent: Key, source: &Source, position: u32| {}(user_state, parent, context, source, position);\",\n",
  "                    index.0,\n",
  "                    content.to_lowercase()\n",
  "                );\n",
  "                stack.push(contents);\n",
  "                index\n",
  "            }\n",
  "            _ => {\n",
  "                panic!(\"Shouldn't happen\")\n",
  "            }\n",
  "        }\n",
  "    }\n",
  "}\n",
  "\n",
  "pub struct BinaryNode {\n",
  "    reference: Reference,\n",
  "    lhs: Option<Key>,\n",
  "    rhs: Option<Key>,\n",
  "}\n"]

/-- generator/src/symbol_table.rs:1-260 -/
def symbolTable : List String := [
  "use parser::BasicPublisher;\n",
  "use parser::{Key, Rules};\n",
  "use std::{collections::HashMap, panic};\n",
  "pub struct SymbolTable<'a> {\n",
  "    names: Vec<String>,\n",
  "    source: &'a String,\n",
  "    inlined_rules: HashMap<String, String>,\n",
  "}\n",
  "\n",
  "impl<'a> SymbolTable<'a> {\n",
  "    pub fn new(tree: &BasicPublisher, source: &'a String) -> Self {\n",
  "        let mut sym_table = SymbolTable {\n",
  "            names: Vec::<String>::new(),\n",
  "            source,\n",
  "            inlined_rules: HashMap::new(),\n",
  "        };\n",
  "        println!(\"Symbol Table created successfully\");\n",
  "        sym_table.create_symbol_table_from_tree(tree);\n",
  "        sym_table.run_duplication_check();\n",
  "        sym_table\n",
  "    }\n",
  "\n",
  "    pub fn get_names(&self) -> &Vec<String> {\n",
  "        &self.names\n",
  "    }\n",
  "\n",
  "    pub fn print(&self) {\n",
  "        for i in &self.names {\n",
  "            println!(\"{i}\")\n",
  "        }\n",
  "    }\n",
  "\n",
  "    pub fn push(&mut self, name: String) {\n",
  "        self.names.push(name);\n",
  "    }\n",
  "\n",
  "    pub fn check_symbol(&self, symbol_name: &str) -> bool {\n",
  "        for i in &self.names {\n",
  "            if symbol_name == *i {\n",
  "                return true;\n",
  "            }\n",
  "        }\n",
  "        false\n",
  "    }\n",
  "\n",
  "    pub fn check_symbol_is_inline(&self, symbol_name: &str) -> bool {\n",
  "        let rule = self.inlined_rules.get(symbol_name);\n",
  "        rule.is_some()\n",
  "    }\n",
  "\n",
  "    fn run_duplication_check(&mut self) {\n",
  "        self.names.sort();\n",
  "        // Dedup only dedups consecutive elements hence the prior sort.\n",
  "        self.names.dedup();\n",
  "    }\n",
  "\n",
  "    pub fn create_symbol_table_from_tree(&mut self, tree: &BasicPublisher) {\n",
  "        let node = tree.get_node(Key(0));\n",
  "        if node.rule != Rules::Grammar {\n",
  "            panic!(\"Invalid Root. Must be of type Rules::Grammar\");\n",
  "        }\n",
  "        let mut counter = 0;\n",
  "        loop {\n",
  "            if counter >= node.get_children().len() {\n",
  "                break;\n",
  "            }\n",
  "            let child_index = node.get_children()[counter];\n",
  "            // Recurse.\n",
  "            self.create_symbol_table_from_tree_kernel(child_index, tree, child_index);\n",
  "            counter += 1;\n",
  "        }\n",
  "    }\n",
  "\n",
  "    pub fn print_inlined_rules(&self) {\n",
  "        println!(\"{:#?}\", self.inlined_rules);\n",
  "    }\n",
  "\n",
  "    fn check_semantic_instructions(\n",
  "        &mut self,\n",
  "        parent_index: Key,\n",
  "        name: &str,\n",
  "        tree: &BasicPublisher,\n",
  "        index: Key,\n",
  "    ) {\n",
  "        let _lhs = tree.get_node(index);\n",
  "        let node = tree.get_node(parent_index);\n",
  "        for child in node.get_children() {\n",
  "            let child_node = tree.get_node(*child);\n",
  "            if child_node.rule == Rules::Semantic_Instructions {\n",
  "                let sem_instr_key = child_node.get_children()[0];\n",
  "                let sem_instr_node = tree.get_node(sem_instr_key).rule;\n",
  "                if sem_instr_node == Rules::Inline {\n",
  "                    self.inlined_rules.insert(name.to_string(), \"\".to_string());\n",
  "                }\n",
  "            }\n",
  "        }\n",
  "    }\n",
  "\n",
  "    fn create_symbol_table_from_tree_kernel(\n",
  "        &mut self,\n",
  "        parent_index: Key,\n",
  "        tree: &BasicPublisher,\n",
  "        index: Key,\n",
  "    ) {\n",
  "        let node = tree.get_node(index);\n",
  "        let mut counter = 0;\n",
  "        if node.rule == Rules::Var_Name_Decl {\n",
  "            if !node.result {\n",
  "                panic!(\"No false results should exist.\")\n",
  "            }\n",
  "            let name = &self.source\n",
  "                [((node.start_position + 1) as usize)..((node.end_position - 1) as usize)];\n",
  "            self.names.push(name.to_string());\n",
  "\n",
  "            self.check_semantic_instructions(parent_index, name, tree, index);\n",
  "        }\n",
  "        loop {\n",
  "            if counter >= node.get_children().len() {\n",
  "                break;\n",
  "            }\n",
  "            let child_index = node.get_children()[counter];\n",
  "            // Recurse.\n",
  "            self.create_symbol_table_from_tree_kernel(index, tree, child_index);\n",
  "            counter += 1;\n",
  "        }\n",
  "    }\n",
  "}\n",
  "\n",
  "#[cfg(test)]\n",
  "mod tests {\n",
  "    use super::*;\n",
  "    use crate::count_lines;\n",
  "    use ::parser::*;\n",
  "    use std::cell::RefCell;\n",
  "    use std::env;\n",
  "    use std::fs::{canonicalize, read_to_string};\n",
  "\n",
  "    #[test]\n",
  "    fn test() {\n",
  "        println!(\"{:?}\", env::current_dir().unwrap());\n",
  "        let path = \"../parser/Grammar.dsl\";\n",
  "        let pathbuf = canonicalize(path).expect(\"If it's moved change the string above\");\n",
  "        let string = read_to_string(pathbuf).expect(\"If it's moved change the string above\");\n",
  "        let string2 = string.clone();\n",
  "        let src_len = string.len();\n",
  "        let source = Source::new(&string);\n",
  "        let position = 0;\n",
  "        let context = BasicContext::new(src_len as usize, RULES_SIZE as usize);\n",
  "        let context: RefCell<BasicContext> = context.into();\n",
  "        let user_state = RefCell::new(UserState::new());\n",
  "        let result = grammar(&user_state, Key(0), &context, &source, position);\n",
  "\n",
  "        // Checks full file was parsed.\n",
  "        if result.1 != string2.len() as u32 {\n",
  "            panic!(\n",
  "                \"Failed to parse grammar due to syntax error on Line: {:?}\",\n",
  "                count_lines(&string2, result.1)\n",
  "            )\n",
  "        } else {\n",
  "            println!(\"Successfully parsed\")\n",
  "        }\n",
  "        let tree = context.into_inner();\n",
  "        let src = &String::from(source);\n",
  "        let clean_tree = tree.get_publisher().clear_false();\n",
  "        clean_tree.print(Key(0), Some(true));\n",
  "        let sym_table = SymbolTable::new(&clean_tree, src);\n",
  "        sym_table.print();\n",
  "        sym_table.print_inlined_rules()\n",
  "    }\n",
  "\n",
  "    #[test]\n",
  "    fn test_2() {\n",
  "        let string = \"<Rule>='A'/'B';\".to_string();\n",
  "        let string2 = string.clone();\n",
  "        let src_len = string.len();\n",
  "        let source = Source::new(&string);\n",
  "        let position = 0;\n",
  "        let context = BasicContext::new(src_len as usize, RULES_SIZE as usize);\n",
  "        let context: RefCell<BasicContext> = context.into();\n",
  "        let user_state = RefCell::new(UserState::new());\n",
  "        let result = grammar(&user_state, Key(0), &context, &source, position);\n",
  "        // Checks full file was parsed.\n",
  "        if result.1 != string2.len() as u32 {\n",
  "            panic!(\n",
  "                \"Failed to parse grammar due to syntax error on Line: {:?}\",\n",
  "                count_lines(&string2, result.1)\n",
  "            )\n",
  "        } else {\n",
  "            println!(\"Successfully parsed\")\n",
  "        }\n",
  "        let tree = context.into_inner();\n",
  "        let src = &String::from(source);\n",
  "        let clean_tree = tree.get_publisher().clear_false();\n",
  "        clean_tree.print(Key(0), Some(true));\n",
  "        let sym_table = SymbolTable::new(&clean_tree, src);\n",
  "        sym_table.print();\n",
  "    }\n",
  "\n",
  "    #[test]\n",
  "    fn test_3() {\n",
  "        let string = \"<Rule> Inline ='A'/'B';\".to_string();\n",
  "        let string2 = string.clone();\n",
  "        let src_len = string.len();\n",
  "        let source = Source::new(&string);\n",
  "        let position = 0;\n",
  "        let context = BasicContext::new(src_len as usize, RULES_SIZE as usize);\n",
  "        let context: RefCell<BasicContext> = context.into();\n",
  "        let user_state = RefCell::new(UserState::new());\n",
  "        let result = grammar(&user_state, Key(0), &context, &source, position);\n",
  "        // Checks full file was parsed.\n",
  "        if result.1 != string2.len() as u32 {\n",
  "            panic!(\n",
  "                \"Failed to parse grammar due to syntax error on Line: {:?}\",\n",
  "                count_lines(&string2, result.1)\n",
  "            )\n",
  "        } else {\n",
  "            println!(\"Successfully parsed\")\n",
  "        }\n",
  "        let tree = context.into_inner();\n",
  "        let src = &String::from(source);\n",
  "        let clean_tree = tree.get_publisher().clear_false();\n",
  "        clean_tree.print(Key(0), Some(true));\n",
  "        let sym_table = SymbolTable::new(&clean_tree, src);\n",
  "        sym_table.print();\n",
  "        println!(\"Inlined Rules:\");\n",
  "        sym_table.print_inlined_rules();\n",
  "    }\n",
  "\n",
  "    #[test]\n",
  "    fn test_4() {\n",
  "        let string = \"<Whitespace> Inline = (' '/'\\n'/'\\r'/'\\t')*;\n",
  "\"\n",
  "        .to_string();\n",
  "        let string2 = string.clone();\n",
  "        let src_len = string.len();\n",
  "        let source = Source::new(&string);\n",
  "        let position = 0;\n",
  "        let context = BasicContext::new(src_len as usize, RULES_SIZE as usize);\n",
  "        let context: RefCell<BasicContext> = context.into();\n",
  "        let user_state = RefCell::new(UserState::new());\n",
  "        let result = grammar(&user_state, Key(0), &context, &source, position);\n",
  "        // Checks full file was parsed.\n",
  "        if result.1 != string2.len() as u32 {\n",
  "            panic!(\n",
  "                \"Failed to parse grammar due to syntax error on Line: {:?}\",\n",
  "                count_lines(&string2, result.1)\n",
  "            )\n",
  "        } else {\n",
  "            println!(\"Successfully parsed\")\n",
  "        }\n",
  "        let tree = context.into_inner();\n",
  "        let src = &String::from(source);\n",
  "        let clean_tree = tree.get_publisher().clear_false();\n",
  "        clean_tree.print(Key(0), Some(true));\n",
  "        let sym_table = SymbolTable::new(&clean_tree, src);\n",
  "        sym_table.print();\n",
  "        println!(\"Inlined Rules:\");\n",
  "        sym_table.print_inlined_rules();\n",
  "    }\n",
  "}\n"]

/-- generator/src/cycle_detector.rs:1-727 -/
def cycleDetector : List String := [
  "use crate::{BasicPublisher, Key, Node, Rules};\n",
  "use std::collections::{HashMap, HashSet};\n",
  "pub struct LeftRecursionDetector {\n",
  "    rule_call_tree: RuleCallTree,\n",
  "}\n",
  "impl LeftRecursionDetector {\n",
  "    pub fn new(tree: &BasicPublisher, source: &String) -> Self {\n",
  "        LeftRecursionDetector {\n",
  "            rule_call_tree: RuleCallTree::new(tree, source),\n",
  "        }\n",
  "    }\n",
  "    pub fn get_left_recursion_rules(&self) -> &HashMap<String, HashSet<String>> {\n",
  "        &self.rule_call_tree.involved_sets\n",
  "    }\n",
  "}\n",
  "\n",
  "#[derive(Debug, PartialEq, Clone)]\n",
  "enum LeftRecursive {\n",
  "    False, // Not left recursive\n",
  "}\n",
  "\n",
  "struct RuleCallTree {\n",
  "    rules_keys: HashMap<String, Key>,\n",
  "    rules_rhs_keys: HashMap<String, Key>,\n",
  "    rules_referenced_by_rule: HashMap<String, HashSet<String>>,\n",
  "    is_rule_left_recursive: HashMap<String, LeftRecursive>,\n",
  "    rules_left_most_rule_refs: HashMap<String, HashSet<String>>,\n",
  "    involved_sets: HashMap<String, HashSet<String>>,\n",
  "}\n",
  "impl RuleCallTree {\n",
  "    fn new(tree: &BasicPublisher, source: &String) -> Self {\n",
  "        let node = tree.get_node(Key(0)); // 0 is root node\n",
  "        let mut rc_tree = RuleCallTree {\n",
  "            rules_keys: HashMap::new(),\n",
  "            rules_rhs_keys: HashMap::new(),\n",
  "            rules_referenced_by_rule: HashMap::new(),\n",
  "            is_rule_left_recursive: HashMap::new(),\n",
  "            rules_left_most_rule_refs: HashMap::new(),\n",
  "            involved_sets: HashMap::new(),\n",
  "        };\n",
  "        rc_tree.walk_node_children(tree, source, node);\n",
  "        // println!(\"Rules -> Keys: {:#?}\", rc_tree.rules_keys);\n",
  "        // println!(\"Rules -> RHS Keys: {:#?}\", rc_tree.rules_rhs_keys);\n",
  "        println!(\n",
  "            \"Rules -> Referenced Rules: {:#?}\",\n",
  "            rc_tree.rules_referenced_by_rule\n",
  "        );\n",
  "        rc_tree.repeated_loop_over_referenced_rules();\n",
  "        println!(\n",
  "            \"Rules -> IsLeftRecursive First Time: {:#?}\",\n",
  "            rc_tree.is_rule_left_recursive\n",
  "        );\n",
  "        rc_tree.get_left_most_called_rules_of_all_rules(tree, source);\n",
  "        println!(\n",
  "            \"Rules -> Left Most Rules: {:#?}\",\n",
  "            rc_tree.rules_left_most_rule_refs\n",
  "        );\n",
  "        // If all left most rules are also not left recursive then we know that rule isn't left recursive either.\n",
  "        rc_tree.repeated_loop_over_cleanup_left_most_called_rules();\n",
  "        println!(\n",
  "            \"Rules -> IsLeftRecursive: {:#?}\",\n",
  "            rc_tree.is_rule_left_recursive\n",
  "        );\n",
  "        rc_tree.create_involved_sets();\n",
  "        println!(\"Rules -> InvolvedSets: {:#?}\", rc_tree.involved_sets);\n",
  "        rc_tree.merge_dependent_sets_loop_until_no_change();\n",
  "\n",
  "        println!(\n",
  "            \"Rules -> InvolvedSets After Merge: {:#?}\",\n",
  "            rc_tree.involved_sets\n",
  "        );\n",
  "\n",
  "        // Copy over the left most rules but ignore any that aren't left recursive\n",
  "        // These appear to be almost the correct involved_set.\n",
  "        // Need to analyse their behaviour.\n",
  "        // By making a tree to see how behaviour loops.\n",
  "        // E.g sub_expr only calls expr_addsub which can call sub_expr so that's clearly a loop.\n",
  "        // Each involved set can include the calling rule(I think)\n",
  "\n",
  "        rc_tree\n",
  "    }\n",
  "    fn involved_rule_count(&mut self) -> usize {\n",
  "        let mut count = 0;\n",
  "        for set in self.involved_sets.values() {\n",
  "            count += set.len();\n",
  "        }\n",
  "        count\n",
  "    }\n",
  "\n",
  "    fn merge_dependent_sets_loop_until_no_change(&mut self) {\n",
  "        let mut last_value = usize::MAX;\n",
  "        let mut current_value = self.involved_rule_count();\n",
  "        while current_value != last_value {\n",
  "            last_value = current_value;\n",
  "            self.merge_dependent_sets();\n",
  "            current_value = self.involved_rule_count();\n",
  "        }\n",
  "    }\n",
  "    fn merge_dependent_sets(&mut self) {\n",
  "        // If a rule depends on a rule that is itself left recursive then the involved set\n",
  "        // Includes it's involved sets.\n",
  "        let copied_involved_sets = self.involved_sets.clone();\n",
  "        for (rule_name, involved_set) in &copied_involved_sets {\n",
  "            let mut copied_set = involved_set.clone();\n",
  "\n",
  "            for subrule_name in involved_set {\n",
  "                let subrule_involved_set = copied_involved_sets\n",
  "                    .get(subrule_name)\n",
  "                    .unwrap_or_else(|| panic!(\"Rule: {subrule_name:?} should exist\"));\n",
  "                copied_set = copied_set.union(subrule_involved_set).cloned().collect();\n",
  "            }\n",
  "            self.involved_sets.insert(rule_name.clone(), copied_set);\n",
  "        }\n",
  "    }\n",
  "\n",
  "    fn create_involved_sets(&mut self) {\n",
  "        for (rule_name, left_most_rules) in &self.rules_left_most_rule_refs {\n",
  "            let mut involved_set: HashSet<String> = HashSet::new();\n",
  "            for rule in left_most_rules {\n",
  "                let is_lr = self.is_rule_left_recursive.get(rule);\n",
  "                match is_lr {\n",
  "                    None => {\n",
  "                        // Is LR, so insert rule\n",
  "                        involved_set.insert(rule.to_string());\n",
  "                    }\n",
  "                    Some(lr) => {\n",
  "                        if *lr != LeftRecursive::False {\n",
  "                            involved_set.insert(rule.to_string());\n",
  "                        }\n",
  "                    }\n",
  "                }\n",
  "            }\n",
  "            if !involved_set.is_empty() {\n",
  "                involved_set.insert(rule_name.to_string()); // Insert self rule\n",
  "                self.involved_sets\n",
  "                    .insert(rule_name.to_string(), involved_set);\n",
  "            }\n",
  "        }\n",
  "    }\n",
  "    fn repeated_loop_over_cleanup_left_most_called_rules(&mut self) {\n",
  "        let mut l = usize::MAX;\n",
  "        println!(\n",
  "            \"Length of is_rule_lr: {:?} {:?}\",\n",
  "            self.is_rule_left_recursive.len(),\n",
  "            l != self.is_rule_left_recursive.len()\n",
  "        );\n",
  "        while l != self.is_rule_left_recursive.len() {\n",
  "            // println!(\"Looped\");\n",
  "            l = self.is_rule_left_recursive.len();\n",
  "            // If the below call adds more rules as left recursive we loop again\n",
  "            // If it does not we break.\n",
  "            self.cleanup_left_most_called_rules();\n",
  "        }\n",
  "    }\n",
  "\n",
  "    fn cleanup_left_most_called_rules(&mut self) {\n",
  "        for (rule_name, left_most_rule_refs) in &self.rules_left_most_rule_refs {\n",
  "            // println!(\"Rule Name: {:#?}\", rule_name);\n",
  "            let mut is_not_left_recursive = true;\n",
  "            for left_most_ref in left_most_rule_refs {\n",
  "                // println!(\"Left most Ref: {:#?}\", left_most_ref);\n",
  "                match self.is_rule_left_recursive.get(left_most_ref) {\n",
  "                    None => {\n",
  "                        // Must assume it could be LR\n",
  "                        is_not_left_recursive = false;\n",
  "                        // println!(\"Left most ref is None\");\n",
  "                    }\n",
  "                    Some(lr) => {\n",
  "                        match lr {\n",
  "                            LeftRecursive::False => {\n",
  "                                // Do nothing\n",
  "                                // println!(\"Left most ref is LeftRecursive::False\");\n",
  "                            }\n",
  "                        }\n",
  "                    }\n",
  "                }\n",
  "            }\n",
  "            if is_not_left_recursive {\n",
  "                self.is_rule_left_recursive\n",
  "                    .insert(rule_name.to_string(), LeftRecursive::False);\n",
  "            }\n",
  "        }\n",
  "    }\n",
  "    fn get_left_most_called_rules_of_all_rules(&mut self, tree: &BasicPublisher, source: &String) {\n",
  "        let mut rule_strings = Vec::new();\n",
  "        for rule in self.rules_keys.keys() {\n",
  "            match self.is_rule_left_recursive.get(rule) {\n",
  "                None => {}\n",
  "                Some(lr) => {\n",
  "                    // Ignore rules we already know are NOT left recursive.\n",
  "                    if *lr == LeftRecursive::False {\n",
  "                        continue;\n",
  "                    }\n",
  "                }\n",
  "            }\n",
  "            rule_strings.push(rule.clone());\n",
  "        }\n",
  "        for rule_name in rule_strings {\n",
  "            let key = self.rules_rhs_keys[&rule_name];\n",
  "            let node = tree.get_node(key);\n",
  "            debug_assert!(node.rule == Rules::RHS);\n",
  "            let mut left_most_rules: HashSet<String> = HashSet::new();\n",
  "            println!(\"Rule Name: {:?}\", rule_name.clone());\n",
  "            Self::get_left_most_called_rules_of_rule(\n",
  "                rule_name.clone(),\n",
  "                node,\n",
  "                tree,\n",
  "                source,\n",
  "                &mut left_most_rules,\n",
  "            );\n",
  "            self.rules_left_most_rule_refs\n",
  "                .insert(rule_name.to_string(), left_most_rules);\n",
  "        }\n",
  "    }\n",
  "\n",
  "    fn get_left_most_called_rules_of_rule(\n",
  "        rule_name: String,\n",
  "        node: &Node,\n",
  "        tree: &BasicPublisher,\n",
  "        source: &String,\n",
  "        left_most_rules: &mut HashSet<String>,\n",
  "    ) {\n",
  "        // For a given rule we need to find the left most rule or rules\n",
  "        // to investigate if they can then lead back to the original rule\n",
  "        // Since that's what determines if a rule is left recursive.\n",
  "        // A minor complication is that ordered choice can both lead to left recursion.\n",
  "        // Subexpressions are another complication since they can be considered like an anonymous subrule.\n",
  "        // This is why there can be multiple rules that are the leftmost referenced rule at runtime.\n",
  "        let node_children = node.get_children();\n",
  "        // println!(\"Inspecting {:?}\", node.rule);\n",
  "        for child in node_children {\n",
  "            let child_node = tree.get_node(*child);\n",
  "            match child_node.rule {\n",
  "                Rules::Ordered_Choice => {\n",
  "                    // We do not care about the rightmost rule in an ordered choice\n",
  "                    // As whilst this could still lead to a loop it's the rule that\n",
  "                    // is called's responsibility to handle the left recursion at that point.\n",
  "                    let children = child_node.get_children();\n",
  "                    let children = &children[..children.len() - 1];\n",
  "\n",
  "                    for child_key in children {\n",
  "                        let child = tree.get_node(*child_key);\n",
  "                        // println!(\"Child: {:?} {:?}\", child.rule, child_key);\n",
  "                        Self::get_left_most_called_rules_of_rule(\n",
  "                            rule_name.clone(),\n",
  "                            child,\n",
  "                            tree,\n",
  "                            source,\n",
  "                            left_most_rules,\n",
  "                        );\n",
  "                    }\n",
  "                    return;\n",
  "                }\n",
  "                Rules::Sequence => {\n",
  "                    // Sequence must have at least two children\n",
  "                    // We ignore any children that are Zero or More or Optional \n",
  "                    // As they always return True which means LR algo cannot work with them\n",
  "                    // Therefore the first true left recursive element is the first \n",
  "                    // element that is not Zero or More or Optional\n",
  "                    for child in node_children {\n",
  "                        let child_node = tree.get_node(*child);\n",
  "                        match child_node.rule {\n",
  "                            Rules::Optional | Rules::Zero_Or_More => {\n",
  "                                // Do nothing\n",
  "                            }\n",
  "                            _ => {\n",
  "                                break\n",
  "                            }\n",
  "                        }\n",
  "                    }\n",
  "                    if tree.get_node(*child).rule == Rules::Optional || tree.get_node(*child).rule == Rules::Zero_Or_More{\n",
  "                        // Means last child is also still optional or zero or more so we return early\n",
  "                        return;\n",
  "                    }\n",
  "                    // If it gets here the first child not a optional or zero or more exists and we check that for LR. \n",
  "                    let child = tree.get_node(*child);\n",
  "                    Self::get_left_most_called_rules_of_rule(\n",
  "                        rule_name.clone(),\n",
  "                        child,\n",
  "                        tree,\n",
  "                        source,\n",
  "                        left_most_rules,\n",
  "                    );\n",
  "                    return;\n",
  "                }\n",
  "                Rules::Atom\n",
  "                | Rules::RHS\n",
  "                | Rules::Nucleus\n",
  "                | Rules::Subexpression\n",
  "                | Rules::Hooked_Call\n",
  "                // | Rules::Optional\n",
  "                // | Rules::Zero_Or_More\n",
  "                | Rules::One_Or_More\n",
  "                | Rules::And_Predicate\n",
  "                | Rules::Not_Predicate => {\n",
  "                    Self::get_left_most_called_rules_of_rule(\n",
  "                        rule_name.clone(),\n",
  "                        child_node,\n",
  "                        tree,\n",
  "                        source,\n",
  "                        left_most_rules,\n",
  "                    );\n",
  "                    return;\n",
  "                }\n",
  "                Rules::Var_Name_Ref => {\n",
  "                    let rule_ref = Self::get_rule_ref_name(source, child_node);\n",
  "                    // println!(\n",
  "                    //     \"One Left Most Rule of {:?} is {:?}\",\n",
  "                    //     rule_ref, child_node.get_string(source)\n",
  "                    // );\n",
  "                    left_most_rules.insert(rule_ref);\n",
  "                    return;\n",
  "                }\n",
  "                _ => {\n",
  "                    // Do Nothing\n",
  "                }\n",
  "            }\n",
  "        }\n",
  "    }\n",
  "\n",
  "    fn repeated_loop_over_referenced_rules(&mut self) {\n",
  "        // First pass is to mark all rules that reference no rules as not left Recursive\n",
  "        // Then we keep looping marking all rules that references only rules that reference no rules as not left recursive.\n",
  "        // Eventually we are left with only rules that reference other rules that reference other rules(sometimes themselves)\n",
  "        // So they may be left recursive(can also be right recursive though. This is just an initial simple pass).\n",
  "        // To get simpler rules out of the way.\n",
  "        let mut l = usize::MAX;\n",
  "        println!(\n",
  "            \"Length of is_rule_lr: {:?} {:?}\",\n",
  "            self.is_rule_left_recursive.len(),\n",
  "            l != self.is_rule_left_recursive.len()\n",
  "        );\n",
  "        while l != self.is_rule_left_recursive.len() {\n",
  "            // println!(\"Looped\");\n",
  "            l = self.is_rule_left_recursive.len();\n",
  "            // If the below call adds more rules as left recursive we loop again\n",
  "            // If it does not we break.\n",
  "            self.loop_over_referenced_rules();\n",
  "        }\n",
  "    }\n",
  "\n",
  "    fn loop_over_referenced_rules(&mut self) {\n",
  "        for (rule_name, referenced_rules) in &self.rules_referenced_by_rule {\n",
  "            if referenced_rules.is_empty() {\n",
  "                self.is_rule_left_recursive\n",
  "                    .insert(rule_name.to_string(), LeftRecursive::False);\n",
  "            } else {\n",
  "                // It has referenced rules.\n",
  "                let mut are_all_referenced_rules_not_left_recursive = true;\n",
  "                for ref_rule in referenced_rules {\n",
  "                    let is_lr = self.is_rule_left_recursive.get(ref_rule);\n",
  "                    match is_lr {\n",
  "                        None => {\n",
  "                            // We don't know yet, so we have to assume it could be\n",
  "                            are_all_referenced_rules_not_left_recursive = false;\n",
  "                        }\n",
  "                        Some(lr) => {\n",
  "                            // Referenced rule is LR so we do nothing.\n",
  "                            match lr {\n",
  "                                LeftRecursive::False => {\n",
  "                                    // If it's false it's fine and we can continue\n",
  "                                }\n",
  "                            }\n",
  "                        }\n",
  "                    }\n",
  "                }\n",
  "                if are_all_referenced_rules_not_left_recursive {\n",
  "                    self.is_rule_left_recursive\n",
  "                        .insert(rule_name.to_string(), LeftRecursive::False);\n",
  "                }\n",
  "            }\n",
  "        }\n",
  "    }\n",
  "\n",
  "    fn get_rule_rhs_index(node: &Node) -> Key {\n",
  "        // We get the index of rhs for the rule not the name because this is the actual graph\n",
  "        // the LHS and the rule node are just syntax for setting up the grammar.\n",
  "        debug_assert_eq!(node.rule, Rules::Rule);\n",
  "        let rhs = node.get_children()[1];\n",
  "        rhs\n",
  "    }\n",
  "\n",
  "    fn get_rules_name(tree: &BasicPublisher, source: &str, node: &Node) -> String {\n",
  "        debug_assert_eq!(node.rule, Rules::Rule);\n",
  "\n",
  "        let lhs = node.get_children()[0];\n",
  "        let lhs = tree.get_node(lhs);\n",
  "        debug_assert_eq!(lhs.rule, Rules::LHS);\n",
  "\n",
  "        let var_name_decl = lhs.get_children()[0];\n",
  "        let var_name_decl = tree.get_node(var_name_decl);\n",
  "        debug_assert_eq!(var_name_decl.rule, Rules::Var_Name_Decl);\n",
  "        let s = var_name_decl.get_string(source);\n",
  "        s[1..s.len() - 1].to_string()\n",
  "    }\n",
  "\n",
  "    fn get_rule_ref_name(source: &str, node: &Node) -> String {\n",
  "        debug_assert_eq!(node.rule, Rules::Var_Name_Ref);\n",
  "        let s = node.get_string(source);\n",
  "        s[1..s.len() - 1].to_string()\n",
  "    }\n",
  "\n",
  "    fn get_rules_referenced_by_rule<'a>(\n",
  "        tree: &BasicPublisher,\n",
  "        source: &String,\n",
  "        node: &Node,\n",
  "        referenced_rules: &'a mut HashSet<String>,\n",
  "    ) -> &'a mut HashSet<String> {\n",
  "        let node_children = node.get_children();\n",
  "        for child in node_children {\n",
  "            let child_node = tree.get_node(*child);\n",
  "            if child_node.rule == Rules::Var_Name_Ref {\n",
  "                // The Key for Rule references.\n",
  "                referenced_rules.insert(Self::get_rule_ref_name(source, child_node));\n",
  "            }\n",
  "            Self::get_rules_referenced_by_rule(tree, source, child_node, referenced_rules);\n",
  "        }\n",
  "        referenced_rules\n",
  "    }\n",
  "\n",
  "    fn walk_node_children(&mut self, tree: &BasicPublisher, source: &String, node: &Node) {\n",
  "        let node_children = node.get_children();\n",
  "        for child in node_children {\n",
  "            let child_node = tree.get_node(*child);\n",
  "            if child_node.rule == Rules::Rule {\n",
  "                // The Key for the Rule itself\n",
  "                let rule_name = Self::get_rules_name(tree, source, child_node);\n",
  "                self.rules_keys.insert(rule_name.clone(), *child);\n",
  "                let rules_rhs_index = Self::get_rule_rhs_index(child_node);\n",
  "                self.rules_rhs_keys\n",
  "                    .insert(rule_name.clone(), rules_rhs_index);\n",
  "                let mut rules_referenced_by_rule: HashSet<String> = HashSet::new();\n",
  "                Self::get_rules_referenced_by_rule(\n",
  "                    tree,\n",
  "                    source,\n",
  "                    child_node,\n",
  "                    &mut rules_referenced_by_rule,\n",
  "                );\n",
  "                self.rules_referenced_by_rule\n",
  "                    .insert(rule_name, rules_referenced_by_rule);\n",
  "            }\n",
  "            self.walk_node_children(tree, source, child_node);\n",
  "        }\n",
  "    }\n",
  "}\n",
  "\n",
  "#[cfg(test)]\n",
  "mod tests {\n",
  "    use super::*;\n",
  "    use crate::count_lines;\n",
  "\n",
  "    use ::parser::*;\n",
  "    use std::cell::RefCell;\n",
  "\n",
  "    use std::fs::{canonicalize, read_to_string};\n",
  "    use std::io::stdout;\n",
  "    use std::io::Write;\n",
  "    #[test]\n",
  "    fn test_var_name_no_lr() {\n",
  "        let string = r##\"<Var_Name> Inline = (<Alphabet_Lower>/<Alphabet_Upper>),(<Alphabet_Lower>/<Alphabet_Upper>/'_')*;\n",
  "        <Alphabet_Upper> Inline = ['A'..'Z']; #We all love commments#\n",
  "        <Alphabet_Lower> Inline =['a'..'z'];\"##.to_string();\n",
  "        let string2 = string.clone();\n",
  "        let src_len = string.len();\n",
  "        let source = Source::new(&string);\n",
  "        let position = 0;\n",
  "        let context = BasicContext::new(src_len as usize, RULES_SIZE as usize);\n",
  "        let context: RefCell<BasicContext> = context.into();\n",
  "        let user_state = RefCell::new(UserState::new());\n",
  "        let result = grammar(&user_state, Key(0), &context, &source, position);\n",
  "\n",
  "        // Checks full file was parsed.\n",
  "        if result.1 != string2.len() as u32 {\n",
  "            panic!(\n",
  "                \"Failed to parse grammar due to syntax error on Line: {:?}\",\n",
  "                count_lines(&string2, result.1)\n",
  "            )\n",
  "        } else {\n",
  "            // println!(\"Successfully parsed\")\n",
  "        }\n",
  "        let source = &String::from(source);\n",
  "        let tree = context.into_inner();\n",
  "        let tree = &tree.get_publisher().clear_false();\n",
  "        let _lr_detector = LeftRecursionDetector::new(tree, source);\n",
  "        stdout().flush().expect(\"Why did it not flush\");\n",
  "        // println!(\"\\n\\n\\n\");\n",
  "        //lr_detector.print_rules_name_map();\n",
  "        //tree.print(Key(0), None);\n",
  "        // let src = &String::from(source);\n",
  "        // let sym_table = SymbolTable::new(tree, src);\n",
  "        // sym_table.print();\n",
  "        // let _gen_code = GeneratedCode::new(&sym_table, &tree, src);\n",
  "        // _gen_code.print();\n",
  "    }\n",
  "\n",
  "    #[test]\n",
  "    fn test_var_name_lr() {\n",
  "        let string = r##\"<Num> = [0x30..0x39];\n",
  "        <test_term> = (<test_term>, '+', <test_fact>)/(<test_term>, '-', <test_fact>)/<test_fact>;\n",
  "<test_fact> = (<test_fact>, '*', <Num>)/(<test_fact>, '/', <Num>)/<Num>;\n",
  "\"##\n",
  "        .to_string();\n",
  "        let string2 = string.clone();\n",
  "        let src_len = string.len();\n",
  "        let source = Source::new(&string);\n",
  "        let position = 0;\n",
  "        let context = BasicContext::new(src_len as usize, RULES_SIZE as usize);\n",
  "        let context: RefCell<BasicContext> = context.into();\n",
  "        let user_state = RefCell::new(UserState::new());\n",
  "        let result = grammar(&user_state, Key(0), &context, &source, position);\n",
  "\n",
  "        // Checks full file was parsed.\n",
  "        if result.1 != string2.len() as u32 {\n",
  "            panic!(\n",
  "                \"Failed to parse grammar due to syntax error on Line: {:?}\",\n",
  "                count_lines(&string2, result.1)\n",
  "            )\n",
  "        } else {\n",
  "            // println!(\"Successfully parsed\")\n",
  "        }\n",
  "        let source = &String::from(source);\n",
  "        let tree = context.into_inner();\n",
  "        let tree = &tree.get_publisher().clear_false();\n",
  "        let _lr_detector = LeftRecursionDetector::new(tree, source);\n",
  "        stdout().flush().expect(\"Why did it not flush\");\n",
  "        // println!(\"\\n\\n\\n\");\n",
  "        //lr_detector.print_rules_name_map();\n",
  "        //tree.print(Key(0), None);\n",
  "        // let src = &String::from(source);\n",
  "        // let sym_table = SymbolTable::new(tree, src);\n",
  "        // sym_table.print();\n",
  "        // let _gen_code = GeneratedCode::new(&sym_table, &tree, src);\n",
  "        // _gen_code.print();\n",
  "    }\n",
  "\n",
  "    #[test]\n",
  "    fn test_var_name_lr2() {\n",
  "        let string = r##\"<Num> = [0x30..0x39];\n",
  "        <test_LR_num> = <Num>;\n",
  "        <test_indirect_three_level_A> = (<test_indirect_three_level_B>, '-', <test_LR_num>) / <test_LR_num>;\n",
  "<test_indirect_three_level_B> = <test_indirect_three_level_C>;\n",
  "<test_indirect_three_level_C> = <test_indirect_three_level_A>;\"##\n",
  "        .to_string();\n",
  "        let string2 = string.clone();\n",
  "        let src_len = string.len();\n",
  "        let source = Source::new(&string);\n",
  "        let position = 0;\n",
  "        let context = BasicContext::new(src_len as usize, RULES_SIZE as usize);\n",
  "        let context: RefCell<BasicContext> = context.into();\n",
  "        let user_state = RefCell::new(UserState::new());\n",
  "        let result = grammar(&user_state, Key(0), &context, &source, position);\n",
  "\n",
  "        // Checks full file was parsed.\n",
  "        if result.1 != string2.len() as u32 {\n",
  "            panic!(\n",
  "                \"Failed to parse grammar due to syntax error on Line: {:?}\",\n",
  "                count_lines(&string2, result.1)\n",
  "            )\n",
  "        } else {\n",
  "            // println!(\"Successfully parsed\")\n",
  "        }\n",
  "        let source = &String::from(source);\n",
  "        let tree = context.into_inner();\n",
  "        let tree = &tree.get_publisher().clear_false();\n",
  "        let _lr_detector = LeftRecursionDetector::new(tree, source);\n",
  "        stdout().flush().expect(\"Why did it not flush\");\n",
  "        // println!(\"\\n\\n\\n\");\n",
  "        //lr_detector.print_rules_name_map();\n",
  "        //tree.print(Key(0), None);\n",
  "        // let src = &String::from(source);\n",
  "        // let sym_table = SymbolTable::new(tree, src);\n",
  "        // sym_table.print();\n",
  "        // let _gen_code = GeneratedCode::new(&sym_table, &tree, src);\n",
  "        // _gen_code.print();\n",
  "    }\n",
  "\n",
  "    #[test]\n",
  "    fn test_no_lr() {\n",
  "        let path = \"../parser/Grammar.dsl\";\n",
  "        let pathbuf = canonicalize(path).expect(\"If it's moved change the string above\");\n",
  "        let string = read_to_string(pathbuf).expect(\"If it's moved change the string above\");\n",
  "        let string2 = string.clone();\n",
  "        let src_len = string.len();\n",
  "        let source = Source::new(&string);\n",
  "        let position = 0;\n",
  "        let context = BasicContext::new(src_len as usize, RULES_SIZE as usize);\n",
  "        let context: RefCell<BasicContext> = context.into();\n",
  "        let user_state = RefCell::new(UserState::new());\n",
  "        let result = grammar(&user_state, Key(0), &context, &source, position);\n",
  "\n",
  "        // Checks full file was parsed.\n",
  "        if result.1 != string2.len() as u32 {\n",
  "            panic!(\n",
  "                \"Failed to parse grammar due to syntax error on Line: {:?}\",\n",
  "                count_lines(&string2, result.1)\n",
  "            )\n",
  "        } else {\n",
  "            // println!(\"Successfully parsed\")\n",
  "        }\n",
  "        let source = &String::from(source);\n",
  "        let tree = context.into_inner();\n",
  "        let tree = &tree.get_publisher().clear_false();\n",
  "        let _lr_detector = LeftRecursionDetector::new(tree, source);\n",
  "        stdout().flush().expect(\"Why did it not flush\");\n",
  "        // println!(\"\\n\\n\\n\");\n",
  "        //lr_detector.print_rules_name_map();\n",
  "        //tree.print(Key(0), None);\n",
  "        // let src = &String::from(source);\n",
  "        // let sym_table = SymbolTable::new(tree, src);\n",
  "        // sym_table.print();\n",
  "        // let _gen_code = GeneratedCode::new(&sym_table, &tree, src);\n",
  "        // _gen_code.print();\n",
  "    }\n",
  "\n",
  "    #[test]\n",
  "    fn test_calculator() {\n",
  "        let path = \"../examples/example_4_full_maths/example_4_full_maths.dsl\";\n",
  "        let pathbuf = canonicalize(path).expect(\"If it's moved change the string above\");\n",
  "        let string = read_to_string(pathbuf).expect(\"If it's moved change the string above\");\n",
  "        let string2 = string.clone();\n",
  "        let src_len = string.len();\n",
  "        let source = Source::new(&string);\n",
  "        let position = 0;\n",
  "        let context = BasicContext::new(src_len as usize, RULES_SIZE as usize);\n",
  "        let context: RefCell<BasicContext> = context.into();\n",
  "        let user_state = RefCell::new(UserState::new());\n",
  "        let result = grammar(&user_state, Key(0), &context, &source, position);\n",
  "\n",
  "        // Checks full file was parsed.\n",
  "        if result.1 != string2.len() as u32 {\n",
  "            panic!(\n",
  "                \"Failed to parse grammar due to syntax error on Line: {:?}\",\n",
  "                count_lines(&string2, result.1)\n",
  "            )\n",
  "        } else {\n",
  "            // println!(\"Successfully parsed\")\n",
  "        }\n",
  "        let source = &String::from(source);\n",
  "        let tree = context.into_inner();\n",
  "        let tree = &tree.get_publisher().clear_false();\n",
  "        let _lr_detector = LeftRecursionDetector::new(tree, source);\n",
  "        stdout().flush().expect(\"Why did it not flush\");\n",
  "        // println!(\"\\n\\n\\n\");\n",
  "        //lr_detector.print_rules_name_map();\n",
  "        //tree.print(Key(0), None);\n",
  "        // let src = &String::from(source);\n",
  "        // let sym_table = SymbolTable::new(tree, src);\n",
  "        // sym_table.print();\n",
  "        // let _gen_code = GeneratedCode::new(&sym_table, &tree, src);\n",
  "        // _gen_code.print();\n",
  "    }\n",
  "    #[test]\n",
  "    fn test_example_2() {\n",
  "        let path = \"../examples/example_2/example_2.dsl\";\n",
  "        let pathbuf = canonicalize(path).expect(\"If it's moved change the string above\");\n",
  "        let string = read_to_string(pathbuf).expect(\"If it's moved change the string above\");\n",
  "        let string2 = string.clone();\n",
  "        let src_len = string.len();\n",
  "        let source = Source::new(&string);\n",
  "        let position = 0;\n",
  "        let context = BasicContext::new(src_len as usize, RULES_SIZE as usize);\n",
  "        let context: RefCell<BasicContext> = context.into();\n",
  "        let user_state = RefCell::new(UserState::new());\n",
  "        let result = grammar(&user_state, Key(0), &context, &source, position);\n",
  "\n",
  "        // Checks full file was parsed.\n",
  "        if result.1 != string2.len() as u32 {\n",
  "            panic!(\n",
  "                \"Failed to parse grammar due to syntax error on Line: {:?}\",\n",
  "                count_lines(&string2, result.1)\n",
  "            )\n",
  "        } else {\n",
  "            // println!(\"Successfully parsed\")\n",
  "        }\n",
  "        let source = &String::from(source);\n",
  "        let tree = context.into_inner();\n",
  "        let tree = &tree.get_publisher().clear_false();\n",
  "        let _lr_detector = LeftRecursionDetector::new(tree, source);\n",
  "        stdout().flush().expect(\"Why did it not flush\");\n",
  "        // println!(\"\\n\\n\\n\");\n",
  "        //lr_detector.print_rules_name_map();\n",
  "        //tree.print(Key(0), None);\n",
  "        // let src = &String::from(source);\n",
  "        // let sym_table = SymbolTable::new(tree, src);\n",
  "        // sym_table.print();\n",
  "        // let _gen_code = GeneratedCode::new(&sym_table, &tree, src);\n",
  "        // _gen_code.print();\n",
  "    }\n",
  "\n",
  "    #[test]\n",
  "    fn test_example_3() {\n",
  "        let path = \"../examples/example_8_indirect_lr_3_level/LR_num_indirect_3_level.dsl\";\n",
  "        let pathbuf = canonicalize(path).expect(\"If it's moved change the string above\");\n",
  "        let string = read_to_string(pathbuf).expect(\"If it's moved change the string above\");\n",
  "        let string2 = string.clone();\n",
  "        let src_len = string.len();\n",
  "        let source = Source::new(&string);\n",
  "        let position = 0;\n",
  "        let context = BasicContext::new(src_len as usize, RULES_SIZE as usize);\n",
  "        let context: RefCell<BasicContext> = context.into();\n",
  "        let user_state = RefCell::new(UserState::new());\n",
  "        let result = grammar(&user_state, Key(0), &context, &source, position);\n",
  "\n",
  "        // Checks full file was parsed.\n",
  "        if result.1 != string2.len() as u32 {\n",
  "            panic!(\n",
  "                \"Failed to parse grammar due to syntax error on Line: {:?}\",\n",
  "                count_lines(&string2, result.1)\n",
  "            )\n",
  "        } else {\n",
  "            // println!(\"Successfully parsed\")\n",
  "        }\n",
  "        let source = &String::from(source);\n",
  "        let tree = context.into_inner();\n",
  "        let tree = &tree.get_publisher().clear_false();\n",
  "        let _lr_detector = LeftRecursionDetector::new(tree, source);\n",
  "        stdout().flush().expect(\"Why did it not flush\");\n",
  "        // println!(\"\\n\\n\\n\");\n",
  "        //lr_detector.print_rules_name_map();\n",
  "        //tree.print(Key(0), None);\n",
  "        // let src = &String::from(source);\n",
  "        // let sym_table = SymbolTable::new(tree, src);\n",
  "        // sym_table.print();\n",
  "        // let _gen_code = GeneratedCode::new(&sym_table, &tree, src);\n",
  "        // _gen_code.print();\n",
  "    }\n",
  "}\n"]

/-- generator/src/constructor.rs:1-1530 -/
def constructor : List String := [
  "use super::binary_wo::{BinaryTreeWO, Reference};\n",
  "use crate::{cycle_detector::LeftRecursionDetector, symbol_table::SymbolTable};\n",
  "use ::parser::*;\n",
  "use indoc::indoc;\n",
  "use std::panic::panic_any;\n",
  "\n",
  "pub struct GeneratedCode<'a> {\n",
  "    // String per rule so we can seperate into files per rule.\n",
  "    pub rules_enum_header: &'a str,\n",
  "    pub rules_size_header: &'a str,\n",
  "    pub parser_header: String,\n",
  "    pub num_rules: usize,\n",
  "    pub rules: Vec<String>,\n",
  "    pub rules_enum: String,\n",
  "    pub rules_enum_header_2: &'a str,\n",
  "}\n",
  "\n",
  "impl GeneratedCode<'_> {\n",
  "    pub fn new(\n",
  "        left_recursive_rules: &LeftRecursionDetector,\n",
  "        symbol_table: &SymbolTable,\n",
  "        tree: &BasicPublisher,\n",
  "        source: &str,\n",
  "    ) -> Self {\n",
  "        println!(\"Generating Code\");\n",
  "        let mut hooked_call_imports_required: Vec<String> = Vec::new();\n",
  "        let rules = Self::generate(\n",
  "            &mut hooked_call_imports_required,\n",
  "            left_recursive_rules,\n",
  "            symbol_table,\n",
  "            tree,\n",
  "            source,\n",
  "        );\n",
  "        let (rules_enum, num_rules) = Self::generate_rules_enum(symbol_table);\n",
  "        let rules_enum_header = indoc! {\n",
  "            r##\"#![allow(non_camel_case_types)] // Again due to generation -> Might solve eventually\n",
  "            use num_derive::FromPrimitive;\n",
  "            impl From<u32> for Rules {\n",
  "                fn from(i: u32) -> Rules {\n",
  "                    let element = num::FromPrimitive::from_u32(i);\n",
  "                    match element {\n",
  "                        Some(rule) => rule,\n",
  "                        None => panic!(\"Not a valid Rule\"),\n",
  "                    }\n",
  "                }\n",
  "            }\"##\n",
  "        };\n",
  "        let rules_enum_header_2 = indoc! {r##\"\n",
  "            #[allow(clippy::upper_case_acronyms)] // Again due to generation -> Might solve eventually\n",
  "            #[derive(PartialEq, Eq, Hash, FromPrimitive, Clone, Copy, Debug, Ord, PartialOrd)]\n",
  "        \"##};\n",
  "        let rules_size_header = indoc! {\n",
  "            r##\"#[allow(dead_code)]\n",
  "                pub static RULES_SIZE: u32 = \"##\n",
  "        };\n",
  "        let mut parser_header = indoc! {\n",
  "            r##\"#![allow(non_camel_case_types)] // Generated Code kinda annoying to deal with so w/e\n",
  "            #![allow(unused_variables)] // Generated Code also, since everything passes stuff\n",
  "            #![allow(unused_imports)] // Generated Code also, since everything passes stuff\n",
  "            use crate::*;\n",
  "            use std::cell::RefCell;\"##\n",
  "        }\n",
  "        .to_string();\n",
  "        if !hooked_call_imports_required.is_empty() {\n",
  "            let mut import = r#\"use crate::hooked_calls::{\"#.to_string();\n",
  "            for hooked_call in hooked_call_imports_required {\n",
  "                import += &(hooked_call + \",\");\n",
  "            }\n",
  "            import.pop(); // Remove last comma\n",
  "            import += \"};\";\n",
  "            parser_header = parser_header.to_owned() + &import;\n",
  "        }\n",
  "\n",
  "        let s = GeneratedCode {\n",
  "            rules_enum_header,\n",
  "            rules_size_header,\n",
  "            parser_header,\n",
  "            rules,\n",
  "            rules_enum,\n",
  "            num_rules,\n",
  "            rules_enum_header_2,\n",
  "        };\n",
  "\n",
  "        println!(\"Code generation complete\");\n",
  "        s\n",
  "    }\n",
  "\n",
  "    pub fn sample_main_header(&self, name: &str) -> String {\n",
  "        let name = name.replace(\"-\", \"_\");\n",
  "        format!(\"use {name}::*;\\n\")\n",
  "    }\n",
  "\n",
  "    pub fn parser_file_content(&self) -> String {\n",
  "        let mut rules: String = \"\".to_string();\n",
  "        for i in &self.rules {\n",
  "            rules.push_str(i);\n",
  "        }\n",
  "        format!(\"{}\\n{}\", self.parser_header, rules)\n",
  "    }\n",
  "\n",
  "    pub fn rules_enum_file_content(&self) -> String {\n",
  "        let rules_size = format!(\"{} {};\", self.rules_size_header, self.num_rules);\n",
  "        format!(\n",
  "            \"{}\\n{}\\n{}\\n{}\",\n",
  "            self.rules_enum_header, rules_size, self.rules_enum_header_2, self.rules_enum\n",
  "        )\n",
  "    }\n",
  "\n",
  "    pub fn print(&self) {\n",
  "        println!(\"Number of Rules: {}\", self.num_rules);\n",
  "        println!(\"Rules Enum: \\n\");\n",
  "        println!(\"{}\\n\", self.rules_enum);\n",
  "        println!(\"Rules:\\n\");\n",
  "        print!(\"{}\", self.parser_header);\n",
  "        for i in &self.rules {\n",
  "            println!(\"{i}\")\n",
  "        }\n",
  "    }\n",
  "\n",
  "    fn generate(\n",
  "        hooked_call_imports_required: &mut Vec<String>,\n",
  "        left_recursive_rules: &LeftRecursionDetector,\n",
  "        symbol_table: &SymbolTable,\n",
  "        tree: &BasicPublisher,\n",
  "        source: &str,\n",
  "    ) -> Vec<String> {\n",
  "        let node = tree.get_node(Key(0));\n",
  "        if node.rule != Rules::Grammar {\n",
  "            panic!(\"Invalid Root. Must be of type Rules::Grammar\");\n",
  "        }\n",
  "        let mut counter = 0;\n",
  "        let mut rules = Vec::new();\n",
  "        loop {\n",
  "            if counter >= node.get_children().len() {\n",
  "                break;\n",
  "            }\n",
  "            let child_index = node.get_children()[counter];\n",
  "            // Recurse.\n",
  "            let rule = Self::match_rule(\n",
  "                hooked_call_imports_required,\n",
  "                left_recursive_rules,\n",
  "                symbol_table,\n",
  "                tree,\n",
  "                source,\n",
  "                child_index,\n",
  "            );\n",
  "            rules.push(rule);\n",
  "            counter += 1;\n",
  "        }\n",
  "        rules\n",
  "    }\n",
  "\n",
  "    fn generate_rules_enum(symbol_table: &SymbolTable) -> (String, usize) {\n",
  "        let mut rules_enum = \"pub enum Rules {\\n\".to_string();\n",
  "        let mut count: usize = 0;\n",
  "        for s in symbol_table.get_names() {\n",
  "            let rule_name = |s: String| {\n",
  "                let start_char = s.chars().nth(0).expect(\"Should exist\");\n",
  "                let start_char = start_char.to_uppercase().to_string();\n",
  "                let rule_name = start_char + s.split_at_checked(1).unwrap().1;\n",
  "                rule_name\n",
  "            };\n",
  "\n",
  "            if !symbol_table.check_symbol_is_inline(s) {\n",
  "                rules_enum.push('\\t');\n",
  "                rules_enum.push_str(&rule_name(s.to_string()));\n",
  "                rules_enum.push(',');\n",
  "                rules_enum.push('\\n');\n",
  "                count += 1;\n",
  "            }\n",
  "        }\n",
  "        rules_enum.push_str(\"\\n}\");\n",
  "        (rules_enum, count)\n",
  "    }\n",
  "\n",
  "    fn match_rule(\n",
  "        hooked_call_imports_required: &mut Vec<String>,\n",
  "        left_recursive_rules: &LeftRecursionDetector,\n",
  "        symbol_table: &SymbolTable,\n",
  "        tree: &BasicPublisher,\n",
  "        source: &str,\n",
  "        index: Key,\n",
  "    ) -> String {\n",
  "        let node = tree.get_node(index);\n",
  "        match node.rule {\n",
  "            Rules::Rule => Self::rule(\n",
  "                hooked_call_imports_required,\n",
  "                left_recursive_rules,\n",
  "                symbol_table,\n",
  "                tree,\n",
  "                source,\n",
  "                index,\n",
  "            ),\n",
  "            _ => {\n",
  "                todo!(\"Not yet implemented\")\n",
  "            }\n",
  "        }\n",
  "    }\n",
  "\n",
  "    fn rule(\n",
  "        hooked_call_imports_required: &mut Vec<String>,\n",
  "        left_recursive_rules: &LeftRecursionDetector,\n",
  "        symbol_table: &SymbolTable,\n",
  "        tree: &BasicPublisher,\n",
  "        source: &str,\n",
  "        index: Key,\n",
  "    ) -> String {\n",
  "        let rule_node = tree.get_node(index);\n",
  "        let rule_children = rule_node.get_children();\n",
  "        let mut name: Option<String> = None;\n",
  "        let mut rhs: String = \"\".to_string();\n",
  "        let mut comment: Option<String> = None;\n",
  "        for i in rule_children {\n",
  "            match tree.get_node(*i).rule {\n",
  "                Rules::LHS => {\n",
  "                    name = Some(Self::lhs(symbol_table, tree, source, *i));\n",
  "                    name = Some(name.unwrap().to_lowercase());\n",
  "                }\n",
  "                Rules::RHS => {\n",
  "                    let mut out_tree = BinaryTreeWO::new();\n",
  "                    let rhs_key = Self::rhs(\n",
  "                        hooked_call_imports_required,\n",
  "                        left_recursive_rules,\n",
  "                        &mut out_tree,\n",
  "                        symbol_table,\n",
  "                        tree,\n",
  "                        source,\n",
  "                        *i,\n",
  "                    );\n",
  "                    let last_key = out_tree.push(Reference::Exec, Some(rhs_key), None);\n",
  "                    //out_tree.print(last_key);\n",
  "\n",
  "                    let mut result = \"\".to_string();\n",
  "                    for i in out_tree.to_string(last_key) {\n",
  "                        result.push('\\t');\n",
  "                        result.push_str(&i);\n",
  "                        result.push('\\n');\n",
  "                    }\n",
  "\n",
  "                    rhs = result\n",
  "                }\n",
  "                Rules::Comment => {\n",
  "                    comment = Some(Self::comment(symbol_table, tree, source, *i));\n",
  "                }\n",
  "                _ => {}\n",
  "            }\n",
  "        }\n",
  "        let name = name.expect(\"Must have name\");\n",
  "        let rule_header = format!(\n",
  "\n",
  "            \"#[allow(dead_code)]\\npub fn {name}<T: Context>(user_state: &RefCell<UserState>, parent: Key, context: &RefCell<T>, source: &Source, position: u32) -> (bool, u32) {{\"\n",
  "        );\n",
  "        let builder = format!(\n",
  "            \"{}\\n{}\\n{}\\n}}\\n\",\n",
  "            rule_header,\n",
  "            comment.unwrap_or(\"\".to_string()),\n",
  "            rhs\n",
  "        );\n",
  "        //println!(\"{}\", builder);\n",
  "        builder\n",
  "    }\n",
  "\n",
  "    fn lhs(_symbol_table: &SymbolTable, tree: &BasicPublisher, source: &str, index: Key) -> String {\n",
  "        let lhs_node = tree.get_node(index);\n",
  "        let lhs_children = lhs_node.get_children();\n",
  "        let var_name_decl_key = lhs_children[0];\n",
  "        let var_name_decl = tree.get_node(var_name_decl_key);\n",
  "        // let var_name_key = var_name_decl.get_children()[0];\n",
  "        // let var_name = tree.get_node(var_name_key);\n",
  "        let name = var_name_decl.get_string(source);\n",
  "        // name still has angle brackets but cba to create string from subnodes\n",
  "        // so simply remove first and last char\n",
  "        let mut s = name;\n",
  "        s.pop(); // remove last\n",
  "        if !s.is_empty() {\n",
  "            s.remove(0); // remove first\n",
  "        }\n",
  "        s\n",
  "    }\n",
  "\n",
  "    fn comment(\n",
  "        _symbol_table: &SymbolTable,\n",
  "        tree: &BasicPublisher,\n",
  "        source: &str,\n",
  "        index: Key,\n",
  "    ) -> String {\n",
  "        let comment_node = tree.get_node(index);\n",
  "        let mut start: Option<u32> = None;\n",
  "        let mut end: Option<u32> = None;\n",
  "        for key in comment_node.get_children() {\n",
  "            if let Rules::ASCII = tree.get_node(*key).rule {\n",
  "                if start.is_none() {\n",
  "                    start = Some(tree.get_node(*key).start_position);\n",
  "                }\n",
  "\n",
  "                end = Some(tree.get_node(*key).end_position);\n",
  "            };\n",
  "        }\n",
  "        let input_str = &source\n",
  "            [(start.expect(\"Must have start\") as usize)..(end.expect(\"Must have end\") as usize)];\n",
  "        let input_strs = input_str.split(\"\\n\");\n",
  "        let mut response_str: String = \"\".to_string();\n",
  "        for input in input_strs {\n",
  "            let input = input.trim();\n",
  "            response_str += \"\\t// \";\n",
  "            response_str += input;\n",
  "            response_str += \"\\n\";\n",
  "        }\n",
  "        response_str\n",
  "    }\n",
  "\n",
  "    fn rhs(\n",
  "        hooked_call_imports_required: &mut Vec<String>,\n",
  "        left_recursive_rules: &LeftRecursionDetector,\n",
  "        out_tree: &mut BinaryTreeWO,\n",
  "        symbol_table: &SymbolTable,\n",
  "        tree: &BasicPublisher,\n",
  "        source: &str,\n",
  "        index: Key,\n",
  "    ) -> Key {\n",
  "        let rhs_node = tree.get_node(index);\n",
  "        let mut ret_key = Key(0);\n",
  "        for i in rhs_node.get_children() {\n",
  "            match tree.get_node(*i).rule {\n",
  "                Rules::Ordered_Choice => {\n",
  "                    ret_key = Self::ordered_choice(\n",
  "                        hooked_call_imports_required,\n",
  "                        left_recursive_rules,\n",
  "                        out_tree,\n",
  "                        symbol_table,\n",
  "                        tree,\n",
  "                        source,\n",
  "                        *i,\n",
  "                    );\n",
  "                }\n",
  "                Rules::Sequence => {\n",
  "                    ret_key = Self::sequence(\n",
  "                        hooked_call_imports_required,\n",
  "                        left_recursive_rules,\n",
  "                        out_tree,\n",
  "                        symbol_table,\n",
  "                        tree,\n",
  "                        source,\n",
  "                        *i,\n",
  "                    );\n",
  "                }\n",
  "                Rules::Atom => {\n",
  "                    ret_key = Self::atom(\n",
  "                        hooked_call_imports_required,\n",
  "                        left_recursive_rules,\n",
  "                        out_tree,\n",
  "                        symbol_table,\n",
  "                        tree,\n",
  "                        source,\n",
  "                        *i,\n",
  "                    )\n",
  "                }\n",
  "                _ => panic!(\"rhs\"),\n",
  "            }\n",
  "        }\n",
  "        ret_key\n",
  "    }\n",
  "\n",
  "    fn ordered_choice(\n",
  "        hooked_call_imports_required: &mut Vec<String>,\n",
  "\n",
  "        left_recursive_rules: &LeftRecursionDetector,\n",
  "        out_tree: &mut BinaryTreeWO,\n",
  "        symbol_table: &SymbolTable,\n",
  "        tree: &BasicPublisher,\n",
  "        source: &str,\n",
  "        index: Key,\n",
  "    ) -> Key {\n",
  "        let oc_node = tree.get_node(index);\n",
  "        let mut count = 0;\n",
  "\n",
  "        let mut last_key = Key(0);\n",
  "        for i in oc_node.get_children() {\n",
  "            match tree.get_node(*i).rule {\n",
  "                Rules::Atom => {\n",
  "                    let mut key = Self::atom(\n",
  "                        hooked_call_imports_required,\n",
  "                        left_recursive_rules,\n",
  "                        out_tree,\n",
  "                        symbol_table,\n",
  "                        tree,\n",
  "                        source,\n",
  "                        *i,\n",
  "                    );\n",
  "                    if count != 0 {\n",
  "                        key = out_tree.push(Reference::OrderedChoice, Some(last_key), Some(key))\n",
  "                    }\n",
  "                    count += 1;\n",
  "                    last_key = key;\n",
  "                }\n",
  "                //Rules::Backslash => {}\n",
  "                _ => panic!(\"ordered_choice\"),\n",
  "            }\n",
  "        }\n",
  "        last_key\n",
  "    }\n",
  "\n",
  "    fn sequence(\n",
  "        hooked_call_imports_required: &mut Vec<String>,\n",
  "\n",
  "        left_recursive_rules: &LeftRecursionDetector,\n",
  "        out_tree: &mut BinaryTreeWO,\n",
  "        symbol_table: &SymbolTable,\n",
  "        tree: &BasicPublisher,\n",
  "        source: &str,\n",
  "        index: Key,\n",
  "    ) -> Key {\n",
  "        let oc_node = tree.get_node(index);\n",
  "        let mut count = 0;\n",
  "\n",
  "        let mut last_key = Key(0);\n",
  "        for i in oc_node.get_children() {\n",
  "            match tree.get_node(*i).rule {\n",
  "                Rules::Atom => {\n",
  "                    let mut key = Self::atom(\n",
  "                        hooked_call_imports_required,\n",
  "                        left_recursive_rules,\n",
  "                        out_tree,\n",
  "                        symbol_table,\n",
  "                        tree,\n",
  "                        source,\n",
  "                        *i,\n",
  "                    );\n",
  "                    if count != 0 {\n",
  "                        key = out_tree.push(Reference::Sequence, Some(last_key), Some(key));\n",
  "                    }\n",
  "                    count += 1;\n",
  "                    last_key = key;\n",
  "                }\n",
  "                //Rules::Comma => {}\n",
  "                _ => panic!(\"sequence\"),\n",
  "            }\n",
  "        }\n",
  "        last_key\n",
  "    }\n",
  "\n",
  "    fn atom(\n",
  "        hooked_call_imports_required: &mut Vec<String>,\n",
  "\n",
  "        left_recursive_rules: &LeftRecursionDetector,\n",
  "        out_tree: &mut BinaryTreeWO,\n",
  "        symbol_table: &SymbolTable,\n",
  "        tree: &BasicPublisher,\n",
  "        source: &str,\n",
  "        index: Key,\n",
  "    ) -> Key {\n",
  "        let node = tree.get_node(index);\n",
  "        let mut ret_key = Key(0);\n",
  "\n",
  "        for i in node.get_children() {\n",
  "            match tree.get_node(*i).rule {\n",
  "                Rules::And_Predicate => {\n",
  "                    ret_key = Self::and_predicate(\n",
  "                        hooked_call_imports_required,\n",
  "                        left_recursive_rules,\n",
  "                        out_tree,\n",
  "                        symbol_table,\n",
  "                        tree,\n",
  "                        source,\n",
  "                        *i,\n",
  "                    );\n",
  "                }\n",
  "                Rules::Not_Predicate => {\n",
  "                    ret_key = Self::not_predicate(\n",
  "                        hooked_call_imports_required,\n",
  "                        left_recursive_rules,\n",
  "                        out_tree,\n",
  "                        symbol_table,\n",
  "                        tree,\n",
  "                        source,\n",
  "                        *i,\n",
  "                    );\n",
  "                }\n",
  "                Rules::One_Or_More => {\n",
  "                    ret_key = Self::one_or_more(\n",
  "                        hooked_call_imports_required,\n",
  "                        left_recursive_rules,\n",
  "                        out_tree,\n",
  "                        symbol_table,\n",
  "                        tree,\n",
  "                        source,\n",
  "                        *i,\n",
  "                    );\n",
  "                }\n",
  "                Rules::Zero_Or_More => {\n",
  "                    ret_key = Self::zero_or_more(\n",
  "                        hooked_call_imports_required,\n",
  "                        left_recursive_rules,\n",
  "                        out_tree,\n",
  "                        symbol_table,\n",
  "                        tree,\n",
  "                        source,\n",
  "                        *i,\n",
  "                    );\n",
  "                }\n",
  "                Rules::Optional => {\n",
  "                    ret_key = Self::optional(\n",
  "                        hooked_call_imports_required,\n",
  "                        left_recursive_rules,\n",
  "                        out_tree,\n",
  "                        symbol_table,\n",
  "                        tree,\n",
  "                        source,\n",
  "                        *i,\n",
  "                    );\n",
  "                }\n",
  "                Rules::Nucleus => {\n",
  "                    ret_key = Self::nucleus(\n",
  "                        hooked_call_imports_required,\n",
  "                        left_recursive_rules,\n",
  "                        out_tree,\n",
  "                        symbol_table,\n",
  "                        tree,\n",
  "                        source,\n",
  "                        *i,\n",
  "                    );\n",
  "                }\n",
  "\n",
  "                _ => panic!(\"atom\"),\n",
  "            }\n",
  "        }\n",
  "        ret_key\n",
  "    }\n",
  "\n",
  "    fn optional(\n",
  "        hooked_call_imports_required: &mut Vec<String>,\n",
  "\n",
  "        left_recursive_rules: &LeftRecursionDetector,\n",
  "        out_tree: &mut BinaryTreeWO,\n",
  "        symbol_table: &SymbolTable,\n",
  "        tree: &BasicPublisher,\n",
  "        source: &str,\n",
  "        index: Key,\n",
  "    ) -> Key {\n",
  "        let node = tree.get_node(index);\n",
  "        let mut ret_key = Key(0);\n",
  "\n",
  "        for i in node.get_children() {\n",
  "            match tree.get_node(*i).rule {\n",
  "                //Rules::Question_Mark => {}\n",
  "                Rules::Nucleus => {\n",
  "                    let key = Self::nucleus(\n",
  "                        hooked_call_imports_required,\n",
  "                        left_recursive_rules,\n",
  "                        out_tree,\n",
  "                        symbol_table,\n",
  "                        tree,\n",
  "                        source,\n",
  "                        *i,\n",
  "                    );\n",
  "                    ret_key = out_tree.push(Reference::Optional, Some(key), None)\n",
  "                }\n",
  "\n",
  "                _ => panic!(\"optional\"),\n",
  "            }\n",
  "        }\n",
  "        ret_key\n",
  "    }\n",
  "    fn one_or_more(\n",
  "        hooked_call_imports_required: &mut Vec<String>,\n",
  "\n",
  "        left_recursive_rules: &LeftRecursionDetector,\n",
  "        out_tree: &mut BinaryTreeWO,\n",
  "        symbol_table: &SymbolTable,\n",
  "        tree: &BasicPublisher,\n",
  "        source: &str,\n",
  "        index: Key,\n",
  "    ) -> Key {\n",
  "        let node = tree.get_node(index);\n",
  "        let mut ret_key = Key(0);\n",
  "\n",
  "        for i in node.get_children() {\n",
  "            match tree.get_node(*i).rule {\n",
  "                //Rules::Plus => {}\n",
  "                Rules::Nucleus => {\n",
  "                    let key = Self::nucleus(\n",
  "                        hooked_call_imports_required,\n",
  "                        left_recursive_rules,\n",
  "                        out_tree,\n",
  "                        symbol_table,\n",
  "                        tree,\n",
  "                        source,\n",
  "                        *i,\n",
  "                    );\n",
  "                    ret_key = out_tree.push(Reference::OneOrMore, Some(key), None)\n",
  "                }\n",
  "\n",
  "                _ => panic!(\"one_or_more\"),\n",
  "            }\n",
  "        }\n",
  "        ret_key\n",
  "    }\n",
  "    fn zero_or_more(\n",
  "        hooked_call_imports_required: &mut Vec<String>,\n",
  "\n",
  "        left_recursive_rules: &LeftRecursionDetector,\n",
  "        out_tree: &mut BinaryTreeWO,\n",
  "        symbol_table: &SymbolTable,\n",
  "        tree: &BasicPublisher,\n",
  "        source: &str,\n",
  "        index: Key,\n",
  "    ) -> Key {\n",
  "        let node = tree.get_node(index);\n",
  "        let mut ret_key = Key(0);\n",
  "\n",
  "        for i in node.get_children() {\n",
  "            match tree.get_node(*i).rule {\n",
  "                //Rules::Star => {}\n",
  "                Rules::Nucleus => {\n",
  "                    let key = Self::nucleus(\n",
  "                        hooked_call_imports_required,\n",
  "                        left_recursive_rules,\n",
  "                        out_tree,\n",
  "                        symbol_table,\n",
  "                        tree,\n",
  "                        source,\n",
  "                        *i,\n",
  "                    );\n",
  "                    ret_key = out_tree.push(Reference::ZeroOrMore, Some(key), None)\n",
  "                }\n",
  "\n",
  "                _ => panic!(\"zero_or_more\"),\n",
  "            }\n",
  "        }\n",
  "        ret_key\n",
  "    }\n",
  "\n",
  "    fn and_predicate(\n",
  "        hooked_call_imports_required: &mut Vec<String>,\n",
  "\n",
  "        left_recursive_rules: &LeftRecursionDetector,\n",
  "        out_tree: &mut BinaryTreeWO,\n",
  "        symbol_table: &SymbolTable,\n",
  "        tree: &BasicPublisher,\n",
  "        source: &str,\n",
  "        index: Key,\n",
  "    ) -> Key {\n",
  "        let node = tree.get_node(index);\n",
  "        let mut ret_key = Key(0);\n",
  "\n",
  "        for i in node.get_children() {\n",
  "            match tree.get_node(*i).rule {\n",
  "                //Rules::Ampersand => {}\n",
  "                Rules::Nucleus => {\n",
  "                    let key = Self::nucleus(\n",
  "                        hooked_call_imports_required,\n",
  "                        left_recursive_rules,\n",
  "                        out_tree,\n",
  "                        symbol_table,\n",
  "                        tree,\n",
  "                        source,\n",
  "                        *i,\n",
  "                    );\n",
  "                    ret_key = out_tree.push(Reference::AndPredicate, Some(key), None);\n",
  "                }\n",
  "\n",
  "                _ => panic!(\"and_predicate\"),\n",
  "            }\n",
  "        }\n",
  "        ret_key\n",
  "    }\n",
  "\n",
  "    fn not_predicate(\n",
  "        hooked_call_imports_required: &mut Vec<String>,\n",
  "\n",
  "        left_recursive_rules: &LeftRecursionDetector,\n",
  "        out_tree: &mut BinaryTreeWO,\n",
  "        symbol_table: &SymbolTable,\n",
  "        tree: &BasicPublisher,\n",
  "        source: &str,\n",
  "        index: Key,\n",
  "    ) -> Key {\n",
  "        let node = tree.get_node(index);\n",
  "        let mut ret_key = Key(0);\n",
  "        for i in node.get_children() {\n",
  "            match tree.get_node(*i).rule {\n",
  "                //Rules::Exclamation_Mark => {}\n",
  "                Rules::Nucleus => {\n",
  "                    let key = Self::nucleus(\n",
  "                        hooked_call_imports_required,\n",
  "                        left_recursive_rules,\n",
  "                        out_tree,\n",
  "                        symbol_table,\n",
  "                        tree,\n",
  "                        source,\n",
  "                        *i,\n",
  "                    );\n",
  "                    ret_key = out_tree.push(Reference::NotPredicate, Some(key), None)\n",
  "                }\n",
  "\n",
  "                _ => panic!(\"not_predicate\"),\n",
  "            }\n",
  "        }\n",
  "        ret_key\n",
  "    }\n",
  "\n",
  "    fn nucleus(\n",
  "        hooked_call_imports_required: &mut Vec<String>,\n",
  "\n",
  "        left_recursive_rules: &LeftRecursionDetector,\n",
  "        out_tree: &mut BinaryTreeWO,\n",
  "        symbol_table: &SymbolTable,\n",
  "        tree: &BasicPublisher,\n",
  "        source: &str,\n",
  "        index: Key,\n",
  "    ) -> Key {\n",
  "        let node = tree.get_node(index);\n",
  "        let mut ret_key = Key(0);\n",
  "        for i in node.get_children() {\n",
  "            let child_rule = tree.get_node(*i).rule;\n",
  "            match child_rule {\n",
  "                Rules::Subexpression => {\n",
  "                    ret_key = Self::subexpression(\n",
  "                        hooked_call_imports_required,\n",
  "                        left_recursive_rules,\n",
  "                        out_tree,\n",
  "                        symbol_table,\n",
  "                        tree,\n",
  "                        source,\n",
  "                        *i,\n",
  "                    );\n",
  "                }\n",
  "                Rules::Terminal => {\n",
  "                    ret_key = Self::terminal(out_tree, symbol_table, tree, source, *i);\n",
  "                }\n",
  "                Rules::Var_Name_Ref => {\n",
  "                    ret_key = Self::var_name(\n",
  "                        left_recursive_rules,\n",
  "                        out_tree,\n",
  "                        symbol_table,\n",
  "                        tree,\n",
  "                        source,\n",
  "                        *i,\n",
  "                    );\n",
  "                }\n",
  "                Rules::OrderedChoiceMatchRange => {\n",
  "                    ret_key =\n",
  "                        Self::ordered_choice_match_range(out_tree, symbol_table, tree, source, *i)\n",
  "                }\n",
  "                Rules::StringTerminal => {\n",
  "                    ret_key = Self::string_terminal(out_tree, symbol_table, tree, source, *i);\n",
  "                }\n",
  "                Rules::Hooked_Call => {\n",
  "                    ret_key = Self::hooked_call(\n",
  "                        hooked_call_imports_required,\n",
  "                        left_recursive_rules,\n",
  "                        out_tree,\n",
  "                        symbol_table,\n",
  "                        tree,\n",
  "                        source,\n",
  "                        *i,\n",
  "                    );\n",
  "                }\n",
  "                _ => {\n",
  "                    let err_msg = format!(\"nucleus, Rule: {child_rule:?}\");\n",
  "                    panic_any(err_msg);\n",
  "                }\n",
  "            }\n",
  "        }\n",
  "        ret_key\n",
  "    }\n",
  "\n",
  "    fn hooked_call(\n",
  "        hooked_call_imports_required: &mut Vec<String>,\n",
  "        left_recursive_rules: &LeftRecursionDetector,\n",
  "        out_tree: &mut BinaryTreeWO,\n",
  "        symbol_table: &SymbolTable,\n",
  "        tree: &BasicPublisher,\n",
  "        source: &str,\n",
  "        index: Key,\n",
  "    ) -> Key {\n",
  "        let node = tree.get_node(index);\n",
  "        let child = node.get_children()[0];\n",
  "        let child_node = tree.get_node(child);\n",
  "        // Since var name is inlined it won't appear as a node so we take the\n",
  "        // hooekd call start position to the start of the first child node.\n",
  "        let var_name =\n",
  "            &source[((node.start_position) as usize)..((child_node.start_position - 1) as usize)];\n",
  "        hooked_call_imports_required.push(var_name.to_string());\n",
  "        // We create the hooked call exactly like a subexpression except we then substitute calls to an external\n",
  "        // file that then in turn calls back to the generated code with <var_name>_kernel\n",
  "        // For now it's on the user to make sure they don't reuse the same names. Due too laziness not because it's hard.\n",
  "\n",
  "        // This allows us to essentially intercept what a subexpression may result in and then change the logic based on some\n",
  "        // outside construct. E.g the typedef problem in C requires us to keep track of defined typedefs in order to determine\n",
  "        // how to parse a function declaration as it depends on whether something is a defined typedef which can be any string.\n",
  "        // This is because C is a context sensitive grammar, Traditionally the Lexer handles this bit making the rest of the parser\n",
  "        // context insensitive. Since we are scannerless however we need a way to resolve this.\n",
  "        let subexpr = Self::subexpression(\n",
  "            hooked_call_imports_required,\n",
  "            left_recursive_rules,\n",
  "            out_tree,\n",
  "            symbol_table,\n",
  "            tree,\n",
  "            source,\n",
  "            index,\n",
  "        );\n",
  "        out_tree.push(\n",
  "            Reference::HookedCall(var_name.to_string()),\n",
  "            Some(subexpr),\n",
  "            None,\n",
  "        )\n",
  "    }\n",
  "\n",
  "    fn string_terminal(\n",
  "        out_tree: &mut BinaryTreeWO,\n",
  "        _symbol_table: &SymbolTable,\n",
  "        tree: &BasicPublisher,\n",
  "        source: &str,\n",
  "        index: Key,\n",
  "    ) -> Key {\n",
  "        let node = tree.get_node(index);\n",
  "        let mut data: Vec<char> = Vec::new();\n",
  "        for i in node.get_children() {\n",
  "            let child_node = tree.get_node(*i);\n",
  "            let child_rule = child_node.rule;\n",
  "            match child_rule {\n",
  "                Rules::ASCII => {\n",
  "                    let contents = source.as_bytes()[((child_node.start_position) as usize)\n",
  "                        ..((child_node.end_position) as usize)][0];\n",
  "                    data.push(contents as char);\n",
  "                }\n",
  "                Rules::Integer => {\n",
  "                    panic!(\"string_terminal Not yet implemented Integer\")\n",
  "                }\n",
  "                Rules::Hex => {\n",
  "                    let contents = &source[((child_node.start_position + 2) as usize)\n",
  "                        ..((child_node.end_position) as usize)];\n",
  "                    let char = u32::from_str_radix(contents, 16);\n",
  "                    data.push(\n",
  "                        char::from_u32(char.expect(\"Failed to parse hex correctly\"))\n",
  "                            .expect(\"Should be valid codepoint\"),\n",
  "                    );\n",
  "                }\n",
  "                _ => {\n",
  "                    let err_msg = format!(\"string_terminal, Rule: {child_rule:?}\");\n",
  "                    panic_any(err_msg);\n",
  "                }\n",
  "            }\n",
  "        }\n",
  "        let mut all_ascii = true;\n",
  "        for char in &data {\n",
  "            if char.len_utf8() != 1 {\n",
  "                all_ascii = false;\n",
  "            }\n",
  "        }\n",
  "        if all_ascii {\n",
  "            out_tree.push(Reference::StringTerminalAsciiOpt(data), None, None)\n",
  "        } else {\n",
  "            out_tree.push(Reference::StringTerminal(data), None, None)\n",
  "        }\n",
  "    }\n",
  "\n",
  "    fn ordered_choice_match_range(\n",
  "        out_tree: &mut BinaryTreeWO,\n",
  "        _symbol_table: &SymbolTable,\n",
  "        tree: &BasicPublisher,\n",
  "        source: &str,\n",
  "        index: Key,\n",
  "    ) -> Key {\n",
  "        let node = tree.get_node(index);\n",
  "        let mut ret_key = Key(0);\n",
  "        let mut start_set: bool = false;\n",
  "        let mut value_start: u32 = 0;\n",
  "        let mut value_end: u32;\n",
  "        for i in node.get_children() {\n",
  "            let child_node = tree.get_node(*i);\n",
  "            let child_rule = child_node.rule;\n",
  "            match child_rule {\n",
  "                Rules::Terminal => {\n",
  "                    let contents = source[((child_node.start_position + 1) as usize)\n",
  "                        ..((child_node.end_position - 1) as usize)]\n",
  "                        .to_string();\n",
  "                    if !start_set {\n",
  "                        value_start = contents.as_bytes()[0] as u32; // Terminal can only be ascii\n",
  "                        start_set = true;\n",
  "                    } else {\n",
  "                        value_end = contents.as_bytes()[0] as u32; // Terminal can only be ascii\n",
  "                        ret_key = out_tree.push(\n",
  "                            Reference::OrderedChoiceMatchRange(value_start, value_end),\n",
  "                            None,\n",
  "                            None,\n",
  "                        )\n",
  "                    }\n",
  "                }\n",
  "                Rules::Integer => {\n",
  "                    panic!(\"OrderedChoiceMatchRange Not yet implemented Integer\")\n",
  "                }\n",
  "                Rules::Hex => {\n",
  "                    let contents = source[((child_node.start_position + 2) as usize)\n",
  "                        ..((child_node.end_position) as usize)]\n",
  "                        .to_string();\n",
  "                    let f = match u32::from_str_radix(&contents, 16) {\n",
  "                        Err(e) => {\n",
  "                            panic!(\"Failed to parse Hex value: {e:?}\")\n",
  "                        }\n",
  "                        Ok(value) => value,\n",
  "                    };\n",
  "\n",
  "                    if !start_set {\n",
  "                        value_start = f; // Terminal can only be ascii\n",
  "                        start_set = true;\n",
  "                    } else {\n",
  "                        value_end = f; // Terminal can only be ascii\n",
  "                        ret_key = out_tree.push(\n",
  "                            Reference::OrderedChoiceMatchRange(value_start, value_end),\n",
  "                            None,\n",
  "                            None,\n",
  "                        )\n",
  "                    }\n",
  "                }\n",
  "\n",
  "                _ => {\n",
  "                    let err_msg = format!(\"ordered choice match range, Rule: {child_rule:?}\");\n",
  "                    panic_any(err_msg);\n",
  "                }\n",
  "            }\n",
  "        }\n",
  "\n",
  "        ret_key\n",
  "    }\n",
  "\n",
  "    fn subexpression(\n",
  "        hooked_call_imports_required: &mut Vec<String>,\n",
  "\n",
  "        left_recursive_rules: &LeftRecursionDetector,\n",
  "        out_tree: &mut BinaryTreeWO,\n",
  "        symbol_table: &SymbolTable,\n",
  "        tree: &BasicPublisher,\n",
  "        source: &str,\n",
  "        index: Key,\n",
  "    ) -> Key {\n",
  "        let node = tree.get_node(index);\n",
  "        let mut ret_key = Key(0);\n",
  "        for i in node.get_children() {\n",
  "            match tree.get_node(*i).rule {\n",
  "                Rules::RHS => {\n",
  "                    let key = Self::rhs(\n",
  "                        hooked_call_imports_required,\n",
  "                        left_recursive_rules,\n",
  "                        out_tree,\n",
  "                        symbol_table,\n",
  "                        tree,\n",
  "                        source,\n",
  "                        *i,\n",
  "                    );\n",
  "                    ret_key = out_tree.push(Reference::Subexpression, Some(key), None);\n",
  "                }\n",
  "                _ => panic!(\"subexpression\"),\n",
  "            }\n",
  "        }\n",
  "        ret_key\n",
  "    }\n",
  "\n",
  "    fn var_name(\n",
  "        left_recursive_rules: &LeftRecursionDetector,\n",
  "        out_tree: &mut BinaryTreeWO,\n",
  "        symbol_table: &SymbolTable,\n",
  "        tree: &BasicPublisher,\n",
  "        source: &str,\n",
  "        index: Key,\n",
  "    ) -> Key {\n",
  "        let node = tree.get_node(index);\n",
  "        let var_name: String = source\n",
  "            [((node.start_position + 1) as usize)..((node.end_position - 1) as usize)]\n",
  "            .to_string();\n",
  "        println!(\"{var_name:#?}\");\n",
  "\n",
  "        let is_left_recursive = left_recursive_rules\n",
  "            .get_left_recursion_rules()\n",
  "            .get(&var_name);\n",
  "        println!(\"IS_ LEFT RECUSRIVE = {is_left_recursive:?}\");\n",
  "        if is_left_recursive.is_some() {\n",
  "            let contents = var_name.to_string();\n",
  "            let involved_set = left_recursive_rules\n",
  "                .get_left_recursion_rules()\n",
  "                .get(&var_name);\n",
  "            match involved_set {\n",
  "                None => {\n",
  "                    panic!(\"Should have involved set\")\n",
  "                }\n",
  "                Some(involved_set) => {\n",
  "                    let involved_set = involved_set.clone();\n",
  "                    let mut involved_set: Vec<String> = involved_set\n",
  "                        .into_iter()\n",
  "                        .map(|rule_name| {\n",
  "                            let start_char = rule_name.chars().nth(0).expect(\"Should exist\");\n",
  "                            let start_char = start_char.to_uppercase().to_string();\n",
  "                            let rule_name = start_char + rule_name.split_at_checked(1).unwrap().1;\n",
  "                            rule_name\n",
  "                        })\n",
  "                        .collect();\n",
  "                    involved_set.sort();\n",
  "                    out_tree.push(\n",
  "                        Reference::LeftRecursiveRule(contents, involved_set),\n",
  "                        None,\n",
  "                        None,\n",
  "                    )\n",
  "                }\n",
  "            }\n",
  "        } else if symbol_table.check_symbol_is_inline(&var_name) {\n",
  "            let contents = var_name.to_string();\n",
  "            out_tree.push(Reference::InlinedRule(contents), None, None)\n",
  "        } else {\n",
  "            let contents = var_name.to_string();\n",
  "            out_tree.push(Reference::VarName(contents), None, None)\n",
  "        }\n",
  "    }\n",
  "\n",
  "    fn terminal(\n",
  "        out_tree: &mut BinaryTreeWO,\n",
  "        _symbol_table: &SymbolTable,\n",
  "        tree: &BasicPublisher,\n",
  "        source: &str,\n",
  "        index: Key,\n",
  "    ) -> Key {\n",
  "        let node = tree.get_node(index);\n",
  "        if node.end_position - node.start_position == 2 {\n",
  "            let key1 = out_tree.push(Reference::Terminal(r#\"\"\"#.to_string()), None, None);\n",
  "            let key2 = out_tree.push(Reference::Terminal(r#\"\"\"#.to_string()), None, None);\n",
  "            out_tree.push(Reference::Sequence, Some(key1), Some(key2))\n",
  "        } else {\n",
  "            let mut contents: String = source\n",
  "                [((node.start_position + 1) as usize)..((node.end_position - 1) as usize)]\n",
  "                .to_string();\n",
  "            if contents == \"\\\\\" {\n",
  "                contents = \"\\\\\\\\\".to_string();\n",
  "            } else if contents == \"'\" {\n",
  "                contents = \"\\\\'\".to_string();\n",
  "            }\n",
  "            let contents = contents.to_string();\n",
  "            out_tree.push(Reference::Terminal(contents), None, None)\n",
  "        }\n",
  "    }\n",
  "}\n",
  "\n",
  "#[cfg(test)]\n",
  "mod tests {\n",
  "    use super::*;\n",
  "    use crate::count_lines;\n",
  "\n",
  "    use std::cell::RefCell;\n",
  "    use std::env;\n",
  "    use std::fs::{canonicalize, read_to_string};\n",
  "\n",
  "    #[test]\n",
  "    fn test_5() {\n",
  "        let string = \"<Rule>='A'/'B'/'C'/'D';   #   Ein Kommentar   #  \".to_string();\n",
  "        let string2 = string.clone();\n",
  "        let src_len = string.len();\n",
  "        let source = Source::new(&string);\n",
  "        let position = 0;\n",
  "        let context = BasicContext::new(src_len as usize, RULES_SIZE as usize);\n",
  "        let context: RefCell<BasicContext> = context.into();\n",
  "        let user_state = RefCell::new(UserState::new());\n",
  "        let result = grammar(&user_state, Key(0), &context, &source, position);\n",
  "        // Checks full file was parsed.\n",
  "        if result.1 != string2.len() as u32 {\n",
  "            panic!(\n",
  "                \"Failed to parse grammar due to syntax error on Line: {:?}\",\n",
  "                count_lines(&string2, result.1)\n",
  "            )\n",
  "        } else {\n",
  "            println!(\"Successfully parsed\")\n",
  "        }\n",
  "        let tree = context.into_inner();\n",
  "        let tree = &tree.get_publisher().clear_false();\n",
  "\n",
  "        //tree.print(Key(0), None);\n",
  "        let src = &String::from(source);\n",
  "        let sym_table = SymbolTable::new(tree, src);\n",
  "        //sym_table.print();\n",
  "        let left_recursion_detector = LeftRecursionDetector::new(tree, src);\n",
  "        let _gen_code = GeneratedCode::new(&left_recursion_detector, &sym_table, tree, src);\n",
  "        _gen_code.print();\n",
  "    }\n",
  "\n",
  "    #[test]\n",
  "    fn test_4() {\n",
  "        let string = \"<Rule>='A','B','';   #   Ein Kommentar   #  \".to_string();\n",
  "        let string2 = string.clone();\n",
  "        let src_len = string.len();\n",
  "        let source = Source::new(&string);\n",
  "        let position = 0;\n",
  "        let context = BasicContext::new(src_len as usize, RULES_SIZE as usize);\n",
  "        let context: RefCell<BasicContext> = context.into();\n",
  "        let user_state = RefCell::new(UserState::new());\n",
  "        let result = grammar(&user_state, Key(0), &context, &source, position);\n",
  "        // Checks full file was parsed.\n",
  "        if result.1 != string2.len() as u32 {\n",
  "            panic!(\n",
  "                \"Failed to parse grammar due to syntax error on Line: {:?}\",\n",
  "                count_lines(&string2, result.1)\n",
  "            )\n",
  "        } else {\n",
  "            println!(\"Successfully parsed\")\n",
  "        }\n",
  "        let tree = context.into_inner();\n",
  "        let tree = &tree.get_publisher().clear_false();\n",
  "\n",
  "        //tree.print(Key(0), None);\n",
  "        let src = &String::from(source);\n",
  "        let sym_table = SymbolTable::new(tree, src);\n",
  "        //sym_table.print();\n",
  "        let left_recursion_detector = LeftRecursionDetector::new(tree, src);\n",
  "        let _gen_code = GeneratedCode::new(&left_recursion_detector, &sym_table, tree, src);\n",
  "        _gen_code.print();\n",
  "    }\n",
  "\n",
  "    #[test]\n",
  "    fn test_2() {\n",
  "        let string = \"<Rule>='A'/'B'/'C';   #   Ein Kommentar   #  \".to_string();\n",
  "        let string2 = string.clone();\n",
  "        let src_len = string.len();\n",
  "        let source = Source::new(&string);\n",
  "        let position = 0;\n",
  "        let context = BasicContext::new(src_len as usize, RULES_SIZE as usize);\n",
  "        let context: RefCell<BasicContext> = context.into();\n",
  "        let user_state = RefCell::new(UserState::new());\n",
  "        let result = grammar(&user_state, Key(0), &context, &source, position); // Checks full file was parsed.\n",
  "        if result.1 != string2.len() as u32 {\n",
  "            panic!(\n",
  "                \"Failed to parse grammar due to syntax error on Line: {:?}\",\n",
  "                count_lines(&string2, result.1)\n",
  "            )\n",
  "        } else {\n",
  "            println!(\"Successfully parsed\")\n",
  "        }\n",
  "        let tree = context.into_inner();\n",
  "        let tree = &tree.get_publisher().clear_false();\n",
  "        //tree.print(Key(0), Some(true));\n",
  "        let src = &String::from(source);\n",
  "        let sym_table = SymbolTable::new(tree, src);\n",
  "        //sym_table.print();\n",
  "        let left_recursion_detector = LeftRecursionDetector::new(tree, src);\n",
  "        let _gen_code = GeneratedCode::new(&left_recursion_detector, &sym_table, tree, src);\n",
  "    }\n",
  "\n",
  "    #[should_panic]\n",
  "    #[test]\n",
  "    fn test_3() {\n",
  "        let string = r#\"<Atom> PASSTHROUGH = (<And_Predicate>/<Not_Predicate>/<One_Or_More>/<Zero_Or_More>/<Optional>/<Nucleus>), <Whitespace>;\n",
  "        \"#.to_string();\n",
  "        let string2 = string.clone();\n",
  "        let src_len = string.len();\n",
  "        let source = Source::new(&string);\n",
  "        let position = 0;\n",
  "        let context = BasicContext::new(src_len as usize, RULES_SIZE as usize);\n",
  "        let context: RefCell<BasicContext> = context.into();\n",
  "        let user_state = RefCell::new(UserState::new());\n",
  "        let result = grammar(&user_state, Key(0), &context, &source, position);\n",
  "        // Checks full file was parsed.\n",
  "        if result.1 != string2.len() as u32 {\n",
  "            panic!(\n",
  "                \"Failed to parse grammar due to syntax error on Line: {:?}\",\n",
  "                count_lines(&string2, result.1)\n",
  "            )\n",
  "        } else {\n",
  "            println!(\"Successfully parsed\")\n",
  "        }\n",
  "        let tree = context.into_inner();\n",
  "        let tree = &tree.get_publisher().clear_false();\n",
  "\n",
  "        //tree.print(Key(0), None);\n",
  "        let src = &String::from(source);\n",
  "        let sym_table = SymbolTable::new(tree, src);\n",
  "        //sym_table.print();\n",
  "        let left_recursion_detector = LeftRecursionDetector::new(tree, src);\n",
  "        let _gen_code = GeneratedCode::new(&left_recursion_detector, &sym_table, tree, src);\n",
  "        _gen_code.print();\n",
  "    }\n",
  "\n",
  "    #[should_panic]\n",
  "    #[test]\n",
  "    fn test_9() {\n",
  "        let string = r#\"<Whitespace> Inline = (' '/'\\n'/'\\r'/'\\t')*;\n",
  "            <LHS> = <Var_Name_Decl>, (<Whitespace>, <Semantic_Instructions>, <Whitespace>)?;\n",
  "        \"#\n",
  "        .to_string();\n",
  "        let string2 = string.clone();\n",
  "        let src_len = string.len();\n",
  "        let source = Source::new(&string);\n",
  "        let position = 0;\n",
  "        let context = BasicContext::new(src_len as usize, RULES_SIZE as usize);\n",
  "        let context: RefCell<BasicContext> = context.into();\n",
  "        let user_state = RefCell::new(UserState::new());\n",
  "        let result = grammar(&user_state, Key(0), &context, &source, position);\n",
  "        // Checks full file was parsed.\n",
  "        if result.1 != string2.len() as u32 {\n",
  "            panic!(\n",
  "                \"Failed to parse grammar due to syntax error on Line: {:?}\",\n",
  "                count_lines(&string2, result.1)\n",
  "            )\n",
  "        } else {\n",
  "            println!(\"Successfully parsed\")\n",
  "        }\n",
  "        let tree = context.into_inner();\n",
  "        let tree = &tree.get_publisher().clear_false();\n",
  "\n",
  "        //tree.print(Key(0), None);\n",
  "        let src = &String::from(source);\n",
  "        let sym_table = SymbolTable::new(tree, src);\n",
  "        sym_table.print();\n",
  "        let left_recursion_detector = LeftRecursionDetector::new(tree, src);\n",
  "        let _gen_code = GeneratedCode::new(&left_recursion_detector, &sym_table, tree, src);\n",
  "        _gen_code.print();\n",
  "    }\n",
  "\n",
  "    #[test]\n",
  "    fn test() {\n",
  "        println!(\"{:?}\", env::current_dir().unwrap());\n",
  "        let path = \"../parser/Grammar.dsl\";\n",
  "        let pathbuf = canonicalize(path).expect(\"If it's moved change the string above\");\n",
  "        let string = read_to_string(pathbuf).expect(\"If it's moved change the string above\");\n",
  "        let string2 = string.clone();\n",
  "        let src_len = string.len();\n",
  "        let source = Source::new(&string);\n",
  "        let position = 0;\n",
  "        let context = BasicContext::new(src_len as usize, RULES_SIZE as usize);\n",
  "        let context: RefCell<BasicContext> = context.into();\n",
  "        let user_state = RefCell::new(UserState::new());\n",
  "        let result = grammar(&user_state, Key(0), &context, &source, position); //tree.print(Key(0), None);\n",
  "                                                                                // Checks full file was parsed.\n",
  "        if result.1 != string2.len() as u32 {\n",
  "            panic!(\n",
  "                \"Failed to parse grammar due to syntax error on Line: {:?}\",\n",
  "                count_lines(&string2, result.1)\n",
  "            )\n",
  "        } else {\n",
  "            println!(\"Successfully parsed\")\n",
  "        }\n",
  "\n",
  "        let tree = context.into_inner();\n",
  "        let tree = &tree.get_publisher().clear_false();\n",
  "        let src = &String::from(source);\n",
  "        let sym_table = SymbolTable::new(tree, src);\n",
  "        //sym_table.print();\n",
  "        let left_recursion_detector = LeftRecursionDetector::new(tree, src);\n",
  "        let gen_code = GeneratedCode::new(&left_recursion_detector, &sym_table, tree, src);\n",
  "        // for i in &gen_code.rules {\n",
  "        //     println!(\"{}\", i)\n",
  "        // }\n",
  "        // println!(\"{}\", gen_code.rules_enum);\n",
  "        println!(\"Inlined Rules:\");\n",
  "        sym_table.print_inlined_rules();\n",
  "        println!(\"End Inlined Rules: \\n\");\n",
  "        gen_code.print();\n",
  "    }\n",
  "\n",
  "    // #[test]\n",
  "    // fn test25() {\n",
  "    //     println!(\"{:?}\", env::current_dir().unwrap());\n",
  "    //     let path = \"../json_parser/json.dsl\";\n",
  "    //     let pathbuf = canonicalize(path).expect(\"If it's moved change the string above\");\n",
  "    //     let string = read_to_string(pathbuf).expect(\"If it's moved change the string above\");\n",
  "    //     let string2 = string.clone();\n",
  "    //     let src_len = string.len();\n",
  "    //     let source = Source::new(&string);\n",
  "    //     let position = 0;\n",
  "    //     let context = BasicContext::new(src_len as usize, RULES_SIZE as usize);\n",
  "    //     let context: RefCell<BasicContext> = context.into();\n",
  "    //     let result = grammar(Key(0), &context, &source, position);\n",
  "    //     //tree.print(Key(0), None);\n",
  "    //     // Checks full file was parsed.\n",
  "    //     if result.1 != string2.len() as u32 {\n",
  "    //         panic!(\n",
  "    //             \"Failed to parse grammar due to syntax error on Line: {:?}\",\n",
  "    //             count_lines(&string2, result.1)\n",
  "    //         )\n",
  "    //     } else {\n",
  "    //         println!(\"Successfully parsed\")\n",
  "    //     }\n",
  "    //     let tree = context.borrow();\n",
  "    //     let tree = &tree.clear_false();\n",
  "    //     let src = &String::from(source);\n",
  "    //     let sym_table = SymbolTable::new(tree, src);\n",
  "    //     //sym_table.print();\n",
  "    //     let gen_code = GeneratedCode::new(&sym_table, &tree, src);\n",
  "    //     for i in gen_code.rules {\n",
  "    //         println!(\"{}\", i)\n",
  "    //     }\n",
  "    //     println!(\"{}\", gen_code.rules_enum)\n",
  "    // }\n",
  "\n",
  "    #[test]\n",
  "    fn test_ordered_choice_match_range() {\n",
  "        let string = r#\"<Atom> = ['A'..'Z'];\n",
  "        \"#\n",
  "        .to_string();\n",
  "        let string2 = string.clone();\n",
  "        let src_len = string.len();\n",
  "        let source = Source::new(&string);\n",
  "        let position = 0;\n",
  "        let context = BasicContext::new(src_len as usize, RULES_SIZE as usize);\n",
  "        let context: RefCell<BasicContext> = context.into();\n",
  "        let user_state = RefCell::new(UserState::new());\n",
  "        let result = grammar(&user_state, Key(0), &context, &source, position);\n",
  "        // Checks full file was parsed.\n",
  "        if result.1 != string2.len() as u32 {\n",
  "            panic!(\n",
  "                \"Failed to parse grammar due to syntax error on Line: {:?}\",\n",
  "                count_lines(&string2, result.1)\n",
  "            )\n",
  "        } else {\n",
  "            println!(\"Successfully parsed\")\n",
  "        }\n",
  "        let tree = context.into_inner();\n",
  "        let tree = &tree.get_publisher().clear_false();\n",
  "\n",
  "        tree.print(Key(0), None);\n",
  "        let src = &String::from(source);\n",
  "        let sym_table = SymbolTable::new(tree, src);\n",
  "        sym_table.print();\n",
  "        let left_recursion_detector = LeftRecursionDetector::new(tree, src);\n",
  "        let gen_code = GeneratedCode::new(&left_recursion_detector, &sym_table, tree, src);\n",
  "        for i in gen_code.rules {\n",
  "            println!(\"{i}\")\n",
  "        }\n",
  "        println!(\"{}\", gen_code.rules_enum)\n",
  "    }\n",
  "\n",
  "    #[test]\n",
  "    fn test_ordered_choice_match_range2() {\n",
  "        let string = r#\"<Atom> = [0x20..0xFF];\n",
  "        \"#\n",
  "        .to_string();\n",
  "        let string2 = string.clone();\n",
  "        let src_len = string.len();\n",
  "        let source = Source::new(&string);\n",
  "        let position = 0;\n",
  "        let context = BasicContext::new(src_len as usize, RULES_SIZE as usize);\n",
  "        let context: RefCell<BasicContext> = context.into();\n",
  "        let user_state = RefCell::new(UserState::new());\n",
  "        let result = grammar(&user_state, Key(0), &context, &source, position);\n",
  "        // Checks full file was parsed.\n",
  "        if result.1 != string2.len() as u32 {\n",
  "            panic!(\n",
  "                \"Failed to parse grammar due to syntax error on Line: {:?}\",\n",
  "                count_lines(&string2, result.1)\n",
  "            )\n",
  "        } else {\n",
  "            println!(\"Successfully parsed\")\n",
  "        }\n",
  "        let tree = context.into_inner();\n",
  "        let tree = &tree.get_publisher().clear_false();\n",
  "\n",
  "        tree.print(Key(0), None);\n",
  "        let src = &String::from(source);\n",
  "        let sym_table = SymbolTable::new(tree, src);\n",
  "        sym_table.print();\n",
  "        let left_recursion_detector = LeftRecursionDetector::new(tree, src);\n",
  "        let gen_code = GeneratedCode::new(&left_recursion_detector, &sym_table, tree, src);\n",
  "        for i in gen_code.rules {\n",
  "            println!(\"{i}\")\n",
  "        }\n",
  "        println!(\"{}\", gen_code.rules_enum)\n",
  "    }\n",
  "\n",
  "    #[test]\n",
  "    fn test_string_terminal() {\n",
  "        let string = r#\"<Atom> = \"COLLECT\";\n",
  "        \"#\n",
  "        .to_string();\n",
  "        let string2 = string.clone();\n",
  "        let src_len = string.len();\n",
  "        let source = Source::new(&string);\n",
  "        let position = 0;\n",
  "        let context = BasicContext::new(src_len as usize, RULES_SIZE as usize);\n",
  "        let context: RefCell<BasicContext> = context.into();\n",
  "        let user_state = RefCell::new(UserState::new());\n",
  "        let result = grammar(&user_state, Key(0), &context, &source, position);\n",
  "        // Checks full file was parsed.\n",
  "        if result.1 != string2.len() as u32 {\n",
  "            panic!(\n",
  "                \"Failed to parse grammar due to syntax error on Line: {:?}\",\n",
  "                count_lines(&string2, result.1)\n",
  "            )\n",
  "        } else {\n",
  "            println!(\"Successfully parsed\")\n",
  "        }\n",
  "        let tree = context.into_inner();\n",
  "        let tree = &tree.get_publisher().clear_false();\n",
  "\n",
  "        tree.print(Key(0), None);\n",
  "        let src = &String::from(source);\n",
  "        let sym_table = SymbolTable::new(tree, src);\n",
  "        sym_table.print();\n",
  "        let left_recursion_detector = LeftRecursionDetector::new(tree, src);\n",
  "        let gen_code = GeneratedCode::new(&left_recursion_detector, &sym_table, tree, src);\n",
  "        for i in gen_code.rules {\n",
  "            println!(\"{i}\")\n",
  "        }\n",
  "        println!(\"{}\", gen_code.rules_enum)\n",
  "    }\n",
  "\n",
  "    #[test]\n",
  "    fn test_string_terminal_emoji_codepoint() {\n",
  "        let string = r#\"<Atom> = 0x0001F600;\n",
  "        \"#\n",
  "        .to_string();\n",
  "        let string2 = string.clone();\n",
  "        let src_len = string.len();\n",
  "        let source = Source::new(&string);\n",
  "        let position = 0;\n",
  "        let context = BasicContext::new(src_len as usize, RULES_SIZE as usize);\n",
  "        let context: RefCell<BasicContext> = context.into();\n",
  "        let user_state = RefCell::new(UserState::new());\n",
  "        let result = grammar(&user_state, Key(0), &context, &source, position); // Checks full file was parsed.\n",
  "        if result.1 != string2.len() as u32 {\n",
  "            panic!(\n",
  "                \"Failed to parse grammar due to syntax error on Line: {:?}\",\n",
  "                count_lines(&string2, result.1)\n",
  "            )\n",
  "        } else {\n",
  "            println!(\"Successfully parsed\")\n",
  "        }\n",
  "        let tree = context.into_inner();\n",
  "        let tree = &tree.get_publisher().clear_false();\n",
  "\n",
  "        tree.print(Key(0), None);\n",
  "        let src = &String::from(source);\n",
  "        let sym_table = SymbolTable::new(tree, src);\n",
  "        sym_table.print();\n",
  "        let left_recursion_detector = LeftRecursionDetector::new(tree, src);\n",
  "        let gen_code = GeneratedCode::new(&left_recursion_detector, &sym_table, tree, src);\n",
  "        for i in gen_code.rules {\n",
  "            println!(\"{i}\")\n",
  "        }\n",
  "        println!(\"{}\", gen_code.rules_enum)\n",
  "    }\n",
  "\n",
  "    #[test]\n",
  "    fn test_inline() {\n",
  "        let string = r#\"<Atom> Inline = ['A'..'Z'];\n",
  "                                <Uses_Atom> = <Atom>;\n",
  "        \"#\n",
  "        .to_string();\n",
  "        let string2 = string.clone();\n",
  "        let src_len = string.len();\n",
  "        let source = Source::new(&string);\n",
  "        let position = 0;\n",
  "        let context = BasicContext::new(src_len as usize, RULES_SIZE as usize);\n",
  "        let context: RefCell<BasicContext> = context.into();\n",
  "        let user_state = RefCell::new(UserState::new());\n",
  "        let result = grammar(&user_state, Key(0), &context, &source, position);\n",
  "        // Checks full file was parsed.\n",
  "        if result.1 != string2.len() as u32 {\n",
  "            panic!(\n",
  "                \"Failed to parse grammar due to syntax error on Line: {:?}\",\n",
  "                count_lines(&string2, result.1)\n",
  "            )\n",
  "        } else {\n",
  "            println!(\"Successfully parsed\")\n",
  "        }\n",
  "        let tree = context.into_inner();\n",
  "        let tree = &tree.get_publisher().clear_false();\n",
  "\n",
  "        tree.print(Key(0), None);\n",
  "        let src = &String::from(source);\n",
  "        let sym_table = SymbolTable::new(tree, src);\n",
  "        sym_table.print();\n",
  "        sym_table.print_inlined_rules();\n",
  "        let left_recursion_detector = LeftRecursionDetector::new(tree, src);\n",
  "        let gen_code = GeneratedCode::new(&left_recursion_detector, &sym_table, tree, src);\n",
  "        gen_code.print();\n",
  "    }\n",
  "\n",
  "    #[test]\n",
  "    fn test_lr() {\n",
  "        let string = r#\"<onenine> Inline = ['1'..'9'];\n",
  "                <digit> Inline = ['0'..'9'];\n",
  "                <integer> = '-'?, ((<onenine>, <digit>+)/<digit>);\n",
  "\n",
  "                <number> = <integer>, <fraction>?, <exponent>?; \n",
  "                <fraction> = ('.', <digit>+);\n",
  "                <exponent> = (('E'/'e'), <sign>, <digit>+);\n",
  "                <sign> = ('+'/'-')?;\n",
  "\n",
  "                <div_expr> = <expr_divmul>, '/', <expr_exponentiation>;\n",
  "                <mult_expr> = <expr_divmul>, '*', <expr_exponentiation>;\n",
  "                <add_expr> = <expr_addsub>, '+', <expr_divmul>;\n",
  "                <sub_expr> = <expr_addsub>, '-', <expr_divmul>;\n",
  "                <exponent_expr> = <expr_parentheses>, '^', <expr_parentheses>;\n",
  "                <parentheses_expr> = '(', <expr_addsub>, ')';\n",
  "                <term> = <number>; #For now we just use a json number and don't differentiate between integers and floats since it doesn't affect the left recursion test value#\n",
  "\n",
  "                <expr_parentheses> = <parentheses_expr>/<term>;\n",
  "                <expr_exponentiation> = <exponent_expr>/<expr_parentheses>;\n",
  "\n",
  "                <expr_divmul> = <div_expr>/<mult_expr>/<expr_exponentiation>;\n",
  "                <expr_addsub> = <add_expr>/<sub_expr>/<expr_divmul>;\n",
  "                <Grammar> = <expr_addsub>;\n",
  "        \"#\n",
  "        .to_string();\n",
  "        let string2 = string.clone();\n",
  "        let src_len = string.len();\n",
  "        let source = Source::new(&string);\n",
  "        let position = 0;\n",
  "        let context = BasicContext::new(src_len as usize, RULES_SIZE as usize);\n",
  "        let context: RefCell<BasicContext> = context.into();\n",
  "        let user_state = RefCell::new(UserState::new());\n",
  "        let result = grammar(&user_state, Key(0), &context, &source, position);\n",
  "        // Checks full file was parsed.\n",
  "        if result.1 != string2.len() as u32 {\n",
  "            panic!(\n",
  "                \"Failed to parse grammar due to syntax error on Line: {:?}\",\n",
  "                count_lines(&string2, result.1)\n",
  "            )\n",
  "        } else {\n",
  "            println!(\"Successfully parsed\")\n",
  "        }\n",
  "        let tree = context.into_inner();\n",
  "        let tree = &tree.get_publisher().clear_false();\n",
  "\n",
  "        tree.print(Key(0), None);\n",
  "        let src = &String::from(source);\n",
  "        let sym_table = SymbolTable::new(tree, src);\n",
  "        sym_table.print();\n",
  "        sym_table.print_inlined_rules();\n",
  "        let left_recursion_detector = LeftRecursionDetector::new(tree, src);\n",
  "        println!(\"{:#?}\", left_recursion_detector.get_left_recursion_rules());\n",
  "        let gen_code = GeneratedCode::new(&left_recursion_detector, &sym_table, tree, src);\n",
  "        gen_code.print();\n",
  "    }\n",
  "}\n"]

/-- generator/src/lib.rs:1-112 -/
def lib : List String := [
  "use std::cell::RefCell;\n",
  "use std::fs::read_to_string;\n",
  "use std::path::PathBuf;\n",
  "mod binary_wo;\n",
  "mod constructor;\n",
  "mod cycle_detector;\n",
  "mod symbol_table;\n",
  "\n",
  "pub use crate::constructor::GeneratedCode;\n",
  "use crate::symbol_table::SymbolTable;\n",
  "use ::parser::*;\n",
  "use cycle_detector::LeftRecursionDetector;\n",
  "\n",
  "fn count_lines(source: &String, start_position: u32) -> u32 {\n",
  "    let mut new_line_count: u32 = 1;\n",
  "\n",
  "    for i in &source.as_bytes()[0..start_position as usize] {\n",
  "        if *i == b'\\n' {\n",
  "            new_line_count += 1;\n",
  "        }\n",
  "    }\n",
  "    new_line_count\n",
  "}\n",
  "\n",
  "pub fn generate_parser(source: &PathBuf) -> Option<GeneratedCode<'_>> {\n",
  "    let string = read_to_string(source).expect(\"If it's moved change the string above\");\n",
  "    let string2 = string.clone();\n",
  "    let src_len = string.len();\n",
  "    let source = Source::new(&string);\n",
  "    let position: u32 = 0;\n",
  "    let context = BasicContext::new(src_len, RULES_SIZE as usize);\n",
  "    let context: RefCell<BasicContext> = context.into();\n",
  "    let user_state = RefCell::new(UserState::new());\n",
  "    let result = grammar(&user_state, Key(0), &context, &source, position);\n",
  "    // let tree = &context.stack.borrow();\n",
  "    // tree.print(Key(0), Some(true));\n",
  "    // println!(\"Grammar Parsing Result: {} {}\", result.0, result.1);\n",
  "    // Checks full file was parsed.\n",
  "    if result.1 != string2.len() as u32 {\n",
  "        println!(\n",
  "            \"Failed to parse grammar due to syntax error on Line: {:?}\",\n",
  "            count_lines(&string2, result.1)\n",
  "        );\n",
  "        return None;\n",
  "    } else {\n",
  "        println!(\"Successfully parsed\")\n",
  "    }\n",
  "    let tree = context.into_inner();\n",
  "    let src = &String::from(source);\n",
  "    let clean_tree = tree.get_publisher().clear_false();\n",
  "    let sym_table = SymbolTable::new(&clean_tree, src);\n",
  "    //sym_table.print();\n",
  "    let cycles = LeftRecursionDetector::new(&clean_tree, src);\n",
  "    let gen_code = GeneratedCode::new(&cycles, &sym_table, &clean_tree, src);\n",
  "    Some(gen_code)\n",
  "}\n",
  "\n",
  "#[cfg(test)]\n",
  "mod tests {\n",
  "    use super::*;\n",
  "\n",
  "    use std::fs::canonicalize;\n",
  "    #[test]\n",
  "    fn test() {\n",
  "        let path = \"../parser/Grammar.dsl\";\n",
  "        let pathbuf = canonicalize(path).expect(\"If it's moved change the string above\");\n",
  "        let gen_code = generate_parser(&pathbuf);\n",
  "        match gen_code {\n",
  "            Some(gen_code) => {\n",
  "                //gen_code.print();\n",
  "                println!(\"{}\", gen_code.parser_file_content());\n",
  "                println!(\"{}\", gen_code.rules_enum_file_content());\n",
  "            }\n",
  "            None => {\n",
  "                panic!(\"Something went wrong\")\n",
  "            }\n",
  "        }\n",
  "    }\n",
  "    #[test]\n",
  "    fn test_calculator() {\n",
  "        let path = \"../examples/example_4_full_maths/example_4_full_maths.dsl\";\n",
  "        let pathbuf = canonicalize(path).expect(\"If it's moved change the string above\");\n",
  "        let gen_code = generate_parser(&pathbuf);\n",
  "        match gen_code {\n",
  "            Some(gen_code) => {\n",
  "                //gen_code.print();\n",
  "                println!(\"{}\", gen_code.parser_file_content());\n",
  "                println!(\"{}\", gen_code.rules_enum_file_content());\n",
  "            }\n",
  "            None => {\n",
  "                panic!(\"Something went wrong\")\n",
  "            }\n",
  "        }\n",
  "    }\n",
  "\n",
  "    #[test]\n",
  "    fn test_example_2() {\n",
  "        let path = \"../examples/example_2/example_2.dsl\";\n",
  "        let pathbuf = canonicalize(path).expect(\"If it's moved change the string above\");\n",
  "        let gen_code = generate_parser(&pathbuf);\n",
  "        match gen_code {\n",
  "            Some(gen_code) => {\n",
  "                //gen_code.print();\n",
  "                println!(\"{}\", gen_code.parser_file_content());\n",
  "                println!(\"{}\", gen_code.rules_enum_file_content());\n",
  "            }\n",
  "            None => {\n",
  "                panic!(\"Something went wrong\")\n",
  "            }\n",
  "        }\n",
  "    }\n",
  "}\n"]

end PP.GenTexts
