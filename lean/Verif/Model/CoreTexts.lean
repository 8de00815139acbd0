import Verif.Model.Gen.Text

/-! Generated by tools/core2lean.py: the text of the checked-in core files, one string per line. -/
namespace PP.CoreTexts

/-- parser/src/keys.rs:1-8 -/
def keys : List String := [
  "#[derive(Copy, Clone, Debug, PartialEq, Eq, Hash)]\n",
  "pub struct Key(pub u32);\n",
  "\n",
  "impl From<Key> for usize {\n",
  "    fn from(i: Key) -> usize {\n",
  "        i.0 as usize\n",
  "    }\n",
  "}\n"]

/-- parser/src/source.rs:1-73 -/
def source : List String := [
  "pub struct Source<'a> {\n",
  "    // Acts as immutable string since Source should never be modified.\n",
  "    source: &'a str,\n",
  "    source_len: u32,\n",
  "}\n",
  "impl From<Source<'_>> for String {\n",
  "    fn from(i: Source) -> String {\n",
  "        i.source.to_string()\n",
  "    }\n",
  "}\n",
  "impl From<&Source<'_>> for String {\n",
  "    fn from(i: &Source) -> String {\n",
  "        i.source.to_string()\n",
  "    }\n",
  "}\n",
  "\n",
  "impl<'a> Source<'a> {\n",
  "    pub fn new(source: &'a str) -> Source<'a> {\n",
  "        let source_len = source.len() as u32;\n",
  "        Source { source, source_len }\n",
  "    }\n",
  "\n",
  "    pub fn get_char(&self, position: u32) -> Option<u8> {\n",
  "        if position < self.source_len {\n",
  "            let src_chr = self.source.as_bytes()[position as usize];\n",
  "            Some(src_chr)\n",
  "        } else {\n",
  "            None\n",
  "        }\n",
  "    }\n",
  "\n",
  "    pub fn get_multiple_chars(&self, position: u32, number_of_chars: u32) -> Option<&[u8]> {\n",
  "        if position + number_of_chars < self.source_len {\n",
  "            let src_chrs =\n",
  "                &self.source.as_bytes()[position as usize..(position + number_of_chars) as usize];\n",
  "            Some(src_chrs)\n",
  "        } else {\n",
  "            None\n",
  "        }\n",
  "    }\n",
  "    pub fn get_string(&self, start_position: u32, end_position: u32) -> Option<&str> {\n",
  "        if start_position > self.source_len || end_position > self.source_len {\n",
  "            None\n",
  "        } else {\n",
  "            Some(&self.source[(start_position as usize)..(end_position as usize)])\n",
  "        }\n",
  "    }\n",
  "\n",
  "    pub fn get_len(&self) -> u32 {\n",
  "        self.source_len\n",
  "    }\n",
  "}\n",
  "\n",
  "#[cfg(test)]\n",
  "mod tests {\n",
  "    use crate::source::Source;\n",
  "    #[test]\n",
  "    fn test_source() {\n",
  "        let string = \"aaa\".to_string();\n",
  "        let source = Source::new(&string);\n",
  "        if let Some(chr) = source.get_char(0) {\n",
  "            assert_eq!(chr, \"a\".to_string().as_bytes()[0])\n",
  "        }\n",
  "        if let Some(chr) = source.get_char(1) {\n",
  "            assert_eq!(chr, \"a\".to_string().as_bytes()[0])\n",
  "        }\n",
  "        if let Some(chr) = source.get_char(2) {\n",
  "            assert_eq!(chr, \"a\".to_string().as_bytes()[0])\n",
  "        }\n",
  "        let s = source.get_char(3);\n",
  "        assert_eq!(s, None);\n",
  "    }\n",
  "}\n"]

/-- parser/src/cache.rs:1-125 -/
def cache : List String := [
  "use crate::{Key, Rules};\n",
  "use std::collections::VecDeque;\n",
  "use std::collections::{BTreeSet, HashMap};\n",
  "\n",
  "#[derive(Debug, Clone)]\n",
  "pub struct Head {\n",
  "    pub start_position: u32,\n",
  "    pub active_left_recursion_rule: Rules,\n",
  "    pub involved_set: BTreeSet<Rules>,\n",
  "    pub eval_set: BTreeSet<Rules>,\n",
  "}\n",
  "\n",
  "#[derive(Debug)]\n",
  "pub struct BasicCache {\n",
  "    cache: HashMap<(Rules, u32), (bool, u32, Key)>,\n",
  "    heads: HashMap<(Rules, u32), Head>,\n",
  "    current_active_left_recursion: Option<(Rules, u32)>,\n",
  "}\n",
  "\n",
  "impl Default for BasicCache {\n",
  "    fn default() -> Self {\n",
  "        Self::new()\n",
  "    }\n",
  "}\n",
  "\n",
  "impl BasicCache {\n",
  "    pub fn new() -> Self {\n",
  "        BasicCache {\n",
  "            cache: HashMap::new(),\n",
  "            heads: HashMap::new(),\n",
  "            current_active_left_recursion: None,\n",
  "        }\n",
  "    }\n",
  "\n",
  "    pub fn get_current_active_lr_position(&self) -> Option<(Rules, u32)> {\n",
  "        self.current_active_left_recursion\n",
  "    }\n",
  "    pub fn set_current_active_lr_position(&mut self, active_lr: Option<(Rules, u32)>) {\n",
  "        self.current_active_left_recursion = active_lr;\n",
  "    }\n",
  "\n",
  "    pub fn insert(\n",
  "        &mut self,\n",
  "        rule: Rules,\n",
  "        is_true: bool,\n",
  "        start_position: u32,\n",
  "        end_position: u32,\n",
  "        key: Key,\n",
  "    ) {\n",
  "        self.cache\n",
  "            .insert((rule, start_position), (is_true, end_position, key));\n",
  "    }\n",
  "    pub fn check(&self, rule: Rules, start_position: u32) -> Option<(bool, u32, Key)> {\n",
  "        self.cache.get(&(rule, start_position)).copied()\n",
  "    }\n",
  "\n",
  "    pub fn check_head(&self, rule: Rules, start_position: u32) -> Option<&Head> {\n",
  "        let head = self.heads.get(&(rule, start_position));\n",
  "        #[allow(clippy::manual_map)]\n",
  "        match head {\n",
  "            None => None,             // Not yet exists therefore no Left Recursion at this position\n",
  "            Some(head) => Some(head), // Return head rule since that's necessary information.\n",
  "        }\n",
  "    }\n",
  "\n",
  "    pub fn set_head(\n",
  "        &mut self,\n",
  "        start_position: u32,\n",
  "        head_rule: Rules,\n",
  "        involved_set: BTreeSet<Rules>,\n",
  "    ) {\n",
  "        let eval_set = involved_set.clone();\n",
  "        let head = Head {\n",
  "            start_position,\n",
  "            active_left_recursion_rule: head_rule,\n",
  "            involved_set,\n",
  "            eval_set,\n",
  "        };\n",
  "        self.heads.insert((head_rule, start_position), head);\n",
  "    }\n",
  "\n",
  "    pub fn reinitialize_eval_set(&mut self, rule: Rules, start_position: u32) {\n",
  "        let head = self\n",
  "            .heads\n",
  "            .get_mut(&(rule, start_position))\n",
  "            .expect(\"Should exist by now\");\n",
  "        head.eval_set = head.involved_set.clone();\n",
  "    }\n",
  "\n",
  "    pub fn rule_in_involved_set(&self, head_index: (Rules, u32), rule: Rules) -> bool {\n",
  "        // Return true if it's in eval set\n",
  "\n",
  "        let head = self\n",
  "            .heads\n",
  "            .get(&head_index)\n",
  "            .expect(\"Should always exist when calling rule_in_involved_set\");\n",
  "\n",
  "        head.involved_set.contains(&rule)\n",
  "    }\n",
  "\n",
  "    pub fn rule_in_eval_set(&self, head_index: (Rules, u32), rule: Rules) -> bool {\n",
  "        // Return true if it's in eval set\n",
  "        let head = self\n",
  "            .heads\n",
  "            .get(&head_index)\n",
  "            .expect(\"Should always exist when calling rule_in_eval_set\");\n",
  "        head.eval_set.contains(&rule)\n",
  "    }\n",
  "    pub fn remove_from_eval_set(&mut self, head_index: (Rules, u32), rule: Rules) {\n",
  "        self.heads\n",
  "            .get_mut(&head_index)\n",
  "            .expect(\"Should exist by now\")\n",
  "            .eval_set\n",
  "            .remove(&rule);\n",
  "    }\n",
  "}\n",
  "\n",
  "#[allow(dead_code)]\n",
  "#[derive(Debug)]\n",
  "\n",
  "pub struct DirectLeftRecursionCache;\n",
  "#[allow(dead_code)]\n",
  "#[derive(Debug)]\n",
  "\n",
  "pub struct IndirectLeftRecursionCache;\n"]

/-- parser/src/publisher.rs:1-372 -/
def publisher : List String := [
  "use num::range;\n",
  "\n",
  "use crate::Key;\n",
  "use crate::Rules;\n",
  "// Tree needs to be able to swap existing structures into other locations\n",
  "// E.g Rule A may fail but calls subrule B where B succeeds\n",
  "// Then Rule C may try on same start location and also need subrule B\n",
  "// So rather than redo subrule B we swap in the existing cached subrule B value.\n",
  "\n",
  "#[derive(Debug)]\n",
  "\n",
  "pub struct BasicPublisher {\n",
  "    nodes: Vec<Node>,\n",
  "}\n",
  "\n",
  "impl PartialEq for BasicPublisher {\n",
  "    fn eq(&self, other: &Self) -> bool {\n",
  "        self.partial_eq_kernel(other, Key(0), Key(0))\n",
  "    }\n",
  "}\n",
  "\n",
  "impl BasicPublisher {\n",
  "    fn partial_eq_kernel(&self, other: &Self, self_index: Key, other_index: Key) -> bool {\n",
  "        let self_node = self.get_node(self_index);\n",
  "        let other_node = other.get_node(other_index);\n",
  "        if self_node == other_node {\n",
  "            for index in range(0, self_node.children.len()) {\n",
  "                if self_node.get_children().len() != other_node.get_children().len() {\n",
  "                    return false;\n",
  "                }\n",
  "                let self_child_key = self_node.get_children()[index];\n",
  "                let other_child_key = other_node.get_children()[index];\n",
  "                if !self.partial_eq_kernel(other, self_child_key, other_child_key) {\n",
  "                    return false;\n",
  "                }\n",
  "            }\n",
  "            true\n",
  "        } else {\n",
  "            false\n",
  "        }\n",
  "    }\n",
  "    pub fn clear_node_of_children(&mut self, node: Key) {\n",
  "        self.get_mut_node(node).set_children(vec![]);\n",
  "    }\n",
  "\n",
  "    pub fn new(size_of_source: usize, number_of_rules: usize) -> Self {\n",
  "        //let memory_to_allocate = ((size_of_source * number_of_rules) * 64) / 128;\n",
  "        // println!(\"Publisher Allocating {} KB\", {\n",
  "        //     memory_to_allocate / (1024)\n",
  "        // });\n",
  "        let mut p = BasicPublisher {\n",
  "            nodes: Vec::<Node>::with_capacity((size_of_source * number_of_rules) / 64),\n",
  "        };\n",
  "        p.add_node(Rules::Grammar, 0, 0, true);\n",
  "        p\n",
  "    }\n",
  "\n",
  "    pub fn clear_tree(&mut self) {\n",
  "        self.nodes.clear();\n",
  "    }\n",
  "\n",
  "    pub fn add_node(\n",
  "        &mut self,\n",
  "        rule: Rules,\n",
  "        start_position: u32,\n",
  "        end_position: u32,\n",
  "        result: bool,\n",
  "    ) -> Key {\n",
  "        let len = self.nodes.len();\n",
  "        let key = Key(len.try_into().unwrap());\n",
  "        let node = Node {\n",
  "            index: key,\n",
  "            rule,\n",
  "            start_position,\n",
  "            end_position,\n",
  "            result,\n",
  "            children: Vec::new(),\n",
  "        };\n",
  "        self.nodes.push(node);\n",
  "        key\n",
  "    }\n",
  "\n",
  "    pub fn connect(&mut self, parent_index: Key, child_index: Key) {\n",
  "        debug_assert!(\n",
  "            parent_index != child_index,\n",
  "            \"Debug: Cannot connect a Node to itself! -> In BasicPublisher.connect, Parent: {parent_index:?}, Child: {child_index:?}\"\n",
  "        );\n",
  "\n",
  "        let parent_node: &mut Node = self.get_mut_node(parent_index);\n",
  "        parent_node.children.push(child_index);\n",
  "    }\n",
  "    pub fn connect_front(&mut self, parent_index: Key, child_index: Key) {\n",
  "        // Copy is fine because typically not that many keys and this fn should only be necessary for Left Recursive Rules\n",
  "        // that are comparably infrequent. Could use a deque or whatever instead but right now I'm just using a Vec\n",
  "        // pending actual performance testing.\n",
  "        // There may well be a better way to do things but just to get things working.\n",
  "        debug_assert!(\n",
  "            parent_index != child_index,\n",
  "            \"Debug: Cannot connect a Node to itself! -> In BasicPublisher.connect_front\"\n",
  "        );\n",
  "        let parent_node: &mut Node = self.get_mut_node(parent_index);\n",
  "        let mut copy_of_children = parent_node.children.clone();\n",
  "        parent_node.children.clear();\n",
  "        parent_node.children.push(child_index);\n",
  "        parent_node.children.append(&mut copy_of_children);\n",
  "    }\n",
  "    pub fn connect_if_not_connected(&mut self, parent_index: Key, child_index: Key) {\n",
  "        let parent_node: &mut Node = self.get_mut_node(parent_index);\n",
  "        for child in &parent_node.children {\n",
  "            if *child == child_index {\n",
  "                return;\n",
  "            }\n",
  "        }\n",
  "        parent_node.children.push(child_index);\n",
  "    }\n",
  "    pub fn disconnect(&mut self, parent_index: Key, child_index: Key) {\n",
  "        let parent_node: &mut Node = self.get_mut_node(parent_index);\n",
  "        let mut remove_pos: Option<usize> = None;\n",
  "        for (position, child) in parent_node.children.iter().enumerate() {\n",
  "            if *child == child_index {\n",
  "                remove_pos = Some(position);\n",
  "            }\n",
  "        }\n",
  "        match remove_pos {\n",
  "            None => {}\n",
  "            Some(remove_pos) => {\n",
  "                parent_node.children.remove(remove_pos);\n",
  "            }\n",
  "        }\n",
  "    }\n",
  "\n",
  "    pub fn set_node_start_position(&mut self, index: Key, start_position: u32) {\n",
  "        self.nodes[usize::from(index)].start_position = start_position\n",
  "    }\n",
  "    pub fn set_node_end_position(&mut self, index: Key, end_position: u32) {\n",
  "        self.nodes[usize::from(index)].end_position = end_position\n",
  "    }\n",
  "    pub fn set_node_result(&mut self, index: Key, result: bool) {\n",
  "        self.nodes[usize::from(index)].result = result\n",
  "    }\n",
  "\n",
  "    pub fn print(&self, index: Key, boolean: Option<bool>) {\n",
  "        let indent = 0;\n",
  "        if boolean.is_some() && boolean.unwrap() {\n",
  "            self.print_kernel_true(index, indent);\n",
  "        } else if boolean.is_some() && !boolean.unwrap() {\n",
  "            self.print_kernel_false(index, indent);\n",
  "        } else {\n",
  "            self.print_kernel_all(index, indent);\n",
  "        }\n",
  "    }\n",
  "\n",
  "    pub fn clear_false(self) -> BasicPublisher {\n",
  "        // Since Tree is a write only structure we need to remvoe False results to be more useful at some point\n",
  "        // Consume self and return a new Tree only containing the True results.\n",
  "        let capacity = self.len() / 4; // Heuristic\n",
  "        let mut new_tree = BasicPublisher::new(capacity, 1);\n",
  "\n",
  "        let index = 0;\n",
  "\n",
  "        let node = self.get_node(Key(index));\n",
  "        if node.result {\n",
  "            new_tree.add_node(\n",
  "                node.rule,\n",
  "                node.start_position,\n",
  "                node.end_position,\n",
  "                node.result,\n",
  "            );\n",
  "            for i in &node.children {\n",
  "                self.clear_false_kernel(&mut new_tree, Key(index), *i);\n",
  "            }\n",
  "        }\n",
  "        new_tree\n",
  "    }\n",
  "}\n",
  "\n",
  "impl BasicPublisher {\n",
  "    pub fn get_node(&self, index: Key) -> &Node {\n",
  "        &self.nodes[usize::from(index)]\n",
  "    }\n",
  "\n",
  "    fn get_mut_node(&mut self, index: Key) -> &mut Node {\n",
  "        &mut self.nodes[usize::from(index)]\n",
  "    }\n",
  "\n",
  "    fn clear_false_kernel(&self, new_tree: &mut BasicPublisher, parent_index: Key, index: Key) {\n",
  "        let node = self.get_node(index);\n",
  "        if node.result && (node.start_position != node.end_position) {\n",
  "            let child_index = new_tree.add_node(\n",
  "                node.rule,\n",
  "                node.start_position,\n",
  "                node.end_position,\n",
  "                node.result,\n",
  "            );\n",
  "            new_tree.connect(parent_index, child_index);\n",
  "            for i in &node.children {\n",
  "                self.clear_false_kernel(new_tree, child_index, *i);\n",
  "            }\n",
  "        }\n",
  "    }\n",
  "\n",
  "    pub fn capacity(&self) -> usize {\n",
  "        self.nodes.capacity()\n",
  "    }\n",
  "\n",
  "    #[allow(clippy::len_without_is_empty)] // One node is added on creation.\n",
  "    pub fn len(&self) -> usize {\n",
  "        self.nodes.len()\n",
  "    }\n",
  "\n",
  "    fn print_kernel_true(&self, index: Key, indent: usize) {\n",
  "        let node = &self.nodes[usize::from(index)];\n",
  "        if !node.result {\n",
  "            return;\n",
  "        }\n",
  "        node.print(indent);\n",
  "        let mut counter = 0;\n",
  "        loop {\n",
  "            if counter >= node.children.len() {\n",
  "                break;\n",
  "            }\n",
  "            let child_index = node.children[counter];\n",
  "            if child_index == Key(0) {\n",
  "                println!(\"Error found Key(0) should not happen!\");\n",
  "                break;\n",
  "            }\n",
  "            self.print_kernel_true(child_index, indent + 1);\n",
  "            counter += 1;\n",
  "        }\n",
  "    }\n",
  "    fn print_kernel_false(&self, index: Key, indent: usize) {\n",
  "        let node = &self.nodes[usize::from(index)];\n",
  "        if node.result {\n",
  "            return;\n",
  "        }\n",
  "        print!(\"\\x1b[31m\");\n",
  "        node.print(indent);\n",
  "        print!(\"\\x1b[0m\");\n",
  "\n",
  "        let mut counter = 0;\n",
  "        loop {\n",
  "            if counter >= node.children.len() {\n",
  "                break;\n",
  "            }\n",
  "            let child_index = node.children[counter];\n",
  "            if child_index == Key(0) {\n",
  "                println!(\"Error found Key(0) should not happen!\");\n",
  "                break;\n",
  "            }\n",
  "            self.print_kernel_false(child_index, indent + 1);\n",
  "            counter += 1;\n",
  "        }\n",
  "    }\n",
  "\n",
  "    fn print_kernel_all(&self, index: Key, indent: usize) {\n",
  "        //thread::sleep(Duration::new(0, 5*10_u32.pow(7)));\n",
  "\n",
  "        let node = &self.nodes[usize::from(index)];\n",
  "        if !node.result {\n",
  "            print!(\"\\x1b[31m\");\n",
  "        }\n",
  "        node.print(indent);\n",
  "        if !node.result {\n",
  "            print!(\"\\x1b[0m\")\n",
  "        }\n",
  "        let mut counter = 0;\n",
  "        loop {\n",
  "            if counter >= node.children.len() {\n",
  "                break;\n",
  "            }\n",
  "            let child_index = node.children[counter];\n",
  "            if child_index == Key(0) {\n",
  "                println!(\"Error found Key(0) should not happen!\");\n",
  "                break;\n",
  "            }\n",
  "            self.print_kernel_all(child_index, indent + 1);\n",
  "            counter += 1;\n",
  "        }\n",
  "    }\n",
  "}\n",
  "\n",
  "#[derive(Debug)]\n",
  "pub struct Node {\n",
  "    index: Key,\n",
  "    pub rule: Rules,\n",
  "    pub start_position: u32,\n",
  "    pub end_position: u32,\n",
  "    pub result: bool,\n",
  "    children: Vec<Key>,\n",
  "    // To minimize allocations maybe have a second struct that contains all child indices and have Node just contain a start_child_index and end_child_index\n",
  "    // Because then we can preallocate a load of memory, means a pointer indirection which may or may not impact performance so needs profiling.\n",
  "}\n",
  "\n",
  "impl PartialEq for Node {\n",
  "    fn eq(&self, other: &Self) -> bool {\n",
  "        // Custom Eq because we don't care about the Key value, We care about\n",
  "        // Matching rule, start_position, end_position, result and the structure of the children.\n",
  "\n",
  "        if self.rule != other.rule {\n",
  "            println!(\"Rule must match!\");\n",
  "            self.print(0);\n",
  "            other.print(0);\n",
  "            false\n",
  "        } else if self.start_position != other.start_position {\n",
  "            println!(\"Start Position must match!\");\n",
  "            self.print(0);\n",
  "            other.print(0);\n",
  "            false\n",
  "        } else if self.end_position != other.end_position {\n",
  "            println!(\"End Position must match!\");\n",
  "            self.print(0);\n",
  "            other.print(0);\n",
  "            false\n",
  "        } else if self.result != other.result {\n",
  "            println!(\"Result(boolean) must be identical!\");\n",
  "            self.print(0);\n",
  "            other.print(0);\n",
  "            false\n",
  "        } else if self.children.len() != other.children.len() {\n",
  "            println!(\"Number of children must be identical!.\");\n",
  "            self.print(0);\n",
  "            other.print(0);\n",
  "            false\n",
  "        } else {\n",
  "            true\n",
  "        }\n",
  "    }\n",
  "}\n",
  "\n",
  "impl Node {\n",
  "    pub fn new(rule: Rules, start_position: u32, end_position: u32, result: bool) -> Self {\n",
  "        Node {\n",
  "            index: Key(0),\n",
  "            rule,\n",
  "            start_position,\n",
  "            end_position,\n",
  "            result,\n",
  "            children: Vec::<Key>::new(),\n",
  "        }\n",
  "    }\n",
  "\n",
  "    pub fn get_string(&self, source: &str) -> String {\n",
  "        source[(self.start_position as usize)..(self.end_position as usize)].to_string()\n",
  "    }\n",
  "\n",
  "    pub fn get_children(&self) -> &Vec<Key> {\n",
  "        &self.children\n",
  "    }\n",
  "    pub fn set_children(&mut self, children: Vec<Key>) {\n",
  "        self.children = children;\n",
  "    }\n",
  "\n",
  "    pub fn print(&self, indent: usize) {\n",
  "        println!(\n",
  "            \"{}{:?}, {:?}, {:?}, {:?}, {:?}, {:?}\",\n",
  "            \"    \".repeat(indent),\n",
  "            self.index,\n",
  "            self.rule,\n",
  "            self.start_position,\n",
  "            self.end_position,\n",
  "            self.result,\n",
  "            self.children.len()\n",
  "        )\n",
  "    }\n",
  "}\n",
  "\n",
  "#[derive(Debug)]\n",
  "\n",
  "pub struct DirectLeftRecursionPublisher;\n",
  "#[derive(Debug)]\n",
  "\n",
  "pub struct IndirectLeftRecursionPublisher;\n"]

/-- parser/src/context.rs:1-193 -/
def context : List String := [
  "#[allow(unused_imports)] // So that I don't need to keep adding or removing whilst testing\n",
  "use super::Key;\n",
  "use crate::{\n",
  "    cache::{DirectLeftRecursionCache, Head, IndirectLeftRecursionCache},\n",
  "    publisher::{DirectLeftRecursionPublisher, IndirectLeftRecursionPublisher},\n",
  "    Rules,\n",
  "};\n",
  "use std::collections::BTreeSet;\n",
  "\n",
  "use super::{BasicCache, BasicPublisher};\n",
  "\n",
  "pub trait Context\n",
  "where\n",
  "    Self::C: core::fmt::Debug, // Cache\n",
  "    Self::P: core::fmt::Debug,\n",
  "{\n",
  "    // Associated types so I can tie specific Cache/Publisher pairs together since they can be mutually exclusive\n",
  "    // I.e NOOP Cache prohibits IndirectLeftRecursionPublisher since you need a cache to do indirect left recursion.\n",
  "    type C; // Cache\n",
  "    type P; // Publisher\n",
  "    #[allow(dead_code)]\n",
  "    fn new(size_of_source: usize, number_of_rules: usize) -> Self;\n",
  "    #[allow(dead_code)]\n",
  "    fn print_cache(&self);\n",
  "    #[allow(dead_code)]\n",
  "    fn print_publisher(&self);\n",
  "    fn check(&self, rule: Rules, start_position: u32) -> Option<(bool, u32, Key)>;\n",
  "    fn connect(&mut self, parent_key: Key, child_key: Key);\n",
  "    fn reserve_publisher_entry(&mut self, rule: Rules) -> Key;\n",
  "    fn create_cache_entry(\n",
  "        &mut self,\n",
  "        rule: Rules,\n",
  "        is_true: bool,\n",
  "        start_position: u32,\n",
  "        end_position: u32,\n",
  "        key: Key,\n",
  "    );\n",
  "    fn connect_if_not_connected(&mut self, parent_index: Key, child_index: Key);\n",
  "    fn update_publisher_entry(\n",
  "        &mut self,\n",
  "        key: Key,\n",
  "        is_true: bool,\n",
  "        start_position: u32,\n",
  "        end_position: u32,\n",
  "    );\n",
  "\n",
  "    fn check_head(&self, rule: Rules, start_position: u32) -> Option<&Head>;\n",
  "    fn set_head(&mut self, start_position: u32, head_rule: Rules, involved_set: BTreeSet<Rules>);\n",
  "    fn rule_in_eval_set(&self, head_index: (Rules, u32), rule: Rules) -> bool;\n",
  "    fn rule_in_involved_set(&self, head: (Rules, u32), rule: Rules) -> bool;\n",
  "\n",
  "    fn remove_from_eval_set(&mut self, head_index: (Rules, u32), rule: Rules);\n",
  "    fn reinitialize_eval_set(&mut self, rule: Rules, start_position: u32);\n",
  "    fn get_publisher(self) -> Self::P;\n",
  "    fn print_node(&self, node: Key);\n",
  "    fn get_current_active_lr_position(&self) -> Option<(Rules, u32)>;\n",
  "    fn set_current_active_lr_position(&mut self, position: Option<(Rules, u32)>);\n",
  "}\n",
  "\n",
  "pub struct BasicContext {\n",
  "    cache: BasicCache,\n",
  "    publisher: BasicPublisher,\n",
  "}\n",
  "#[allow(dead_code)]\n",
  "pub struct DirectLeftRecursionContext {\n",
  "    cache: DirectLeftRecursionCache,\n",
  "    publisher: DirectLeftRecursionPublisher,\n",
  "}\n",
  "#[allow(dead_code)]\n",
  "pub struct IndirectLeftRecursionContext {\n",
  "    cache: IndirectLeftRecursionCache,\n",
  "    publisher: IndirectLeftRecursionPublisher,\n",
  "}\n",
  "\n",
  "impl Context for BasicContext {\n",
  "    type C = BasicCache;\n",
  "    type P = BasicPublisher;\n",
  "\n",
  "    fn new(size_of_source: usize, number_of_rules: usize) -> Self {\n",
  "        BasicContext {\n",
  "            cache: Self::C::new(),\n",
  "            publisher: Self::P::new(size_of_source, number_of_rules),\n",
  "        }\n",
  "    }\n",
  "\n",
  "    fn get_current_active_lr_position(&self) -> Option<(Rules, u32)> {\n",
  "        self.cache.get_current_active_lr_position()\n",
  "    }\n",
  "    fn set_current_active_lr_position(&mut self, position: Option<(Rules, u32)>) {\n",
  "        self.cache.set_current_active_lr_position(position);\n",
  "    }\n",
  "\n",
  "    fn reinitialize_eval_set(&mut self, rule: Rules, start_position: u32) {\n",
  "        self.cache.reinitialize_eval_set(rule, start_position);\n",
  "    }\n",
  "    #[allow(dead_code)]\n",
  "    fn print_cache(&self) {\n",
  "        println!(\"{:?}\", &self.cache)\n",
  "    }\n",
  "    fn print_publisher(&self) {\n",
  "        println!(\"\\n\\n{:?}\", &self.publisher)\n",
  "    }\n",
  "    fn print_node(&self, node: Key) {\n",
  "        self.publisher.print(node, None);\n",
  "    }\n",
  "\n",
  "    fn reserve_publisher_entry(&mut self, rule: Rules) -> Key {\n",
  "        self.publisher.add_node(rule, 0, 0, false)\n",
  "    }\n",
  "    fn connect(&mut self, parent_key: Key, child_key: Key) {\n",
  "        self.publisher.connect(parent_key, child_key);\n",
  "    }\n",
  "    fn create_cache_entry(\n",
  "        &mut self,\n",
  "        rule: Rules,\n",
  "        is_true: bool,\n",
  "        start_position: u32,\n",
  "        end_position: u32,\n",
  "        key: Key,\n",
  "    ) {\n",
  "        self.cache\n",
  "            .insert(rule, is_true, start_position, end_position, key);\n",
  "    }\n",
  "\n",
  "    fn update_publisher_entry(\n",
  "        &mut self,\n",
  "        key: Key,\n",
  "        is_true: bool,\n",
  "        start_position: u32,\n",
  "        end_position: u32,\n",
  "    ) {\n",
  "        self.publisher.set_node_result(key, is_true);\n",
  "        self.publisher.set_node_start_position(key, start_position);\n",
  "        self.publisher.set_node_end_position(key, end_position);\n",
  "    }\n",
  "    fn check(&self, rule: Rules, start_position: u32) -> Option<(bool, u32, Key)> {\n",
  "        self.cache.check(rule, start_position)\n",
  "    }\n",
  "    fn check_head(&self, rule: Rules, start_position: u32) -> Option<&Head> {\n",
  "        self.cache.check_head(rule, start_position)\n",
  "    }\n",
  "\n",
  "    fn rule_in_involved_set(&self, head: (Rules, u32), rule: Rules) -> bool {\n",
  "        self.cache.rule_in_involved_set(head, rule)\n",
  "    }\n",
  "    fn connect_if_not_connected(&mut self, parent_index: Key, child_index: Key) {\n",
  "        self.publisher\n",
  "            .connect_if_not_connected(parent_index, child_index);\n",
  "    }\n",
  "    fn set_head(&mut self, start_position: u32, head_rule: Rules, involved_set: BTreeSet<Rules>) {\n",
  "        self.cache.set_head(start_position, head_rule, involved_set);\n",
  "    }\n",
  "    fn rule_in_eval_set(&self, head_index: (Rules, u32), rule: Rules) -> bool {\n",
  "        self.cache.rule_in_eval_set(head_index, rule)\n",
  "    }\n",
  "    fn remove_from_eval_set(&mut self, head_index: (Rules, u32), rule: Rules) {\n",
  "        self.cache.remove_from_eval_set(head_index, rule);\n",
  "    }\n",
  "\n",
  "    fn get_publisher(self) -> Self::P {\n",
  "        self.publisher\n",
  "    }\n",
  "}\n",
  "\n",
  "#[cfg(test)]\n",
  "mod tests {\n",
  "    use super::*;\n",
  "    use core::cell::RefCell;\n",
  "\n",
  "    #[test]\n",
  "    fn test() {\n",
  "        let context = BasicContext {\n",
  "            cache: BasicCache::new(),\n",
  "            publisher: BasicPublisher::new(0, 0),\n",
  "        };\n",
  "        context.print_cache();\n",
  "        context.print_publisher();\n",
  "    }\n",
  "    #[test]\n",
  "    fn test3() {\n",
  "        let context = BasicContext::new(0, 0);\n",
  "        context.print_cache();\n",
  "        context.print_publisher();\n",
  "    }\n",
  "\n",
  "    #[test]\n",
  "    fn test2() {\n",
  "        let context: RefCell<BasicContext> = RefCell::new(BasicContext::new(0, 0));\n",
  "        let borrowed_context = context.borrow();\n",
  "        borrowed_context.print_cache();\n",
  "        borrowed_context.print_publisher();\n",
  "    }\n",
  "}\n"]

/-- parser/src/parser_core.rs:1-272 -/
def parserCore : List String := [
  "use super::Source;\n",
  "use crate::Key;\n",
  "\n",
  "pub fn _and_predicate_kernel(\n",
  "    parent: Key,\n",
  "    source: &Source,\n",
  "    position: u32,\n",
  "    func: impl Fn(Key, &Source, u32) -> (bool, u32),\n",
  ") -> (bool, u32) {\n",
  "    let temp_position = position;\n",
  "    let (valid, _position) = func(parent, source, temp_position);\n",
  "    if !valid {\n",
  "        return (false, temp_position);\n",
  "    }\n",
  "    (true, temp_position)\n",
  "}\n",
  "\n",
  "pub fn _and_predicate(\n",
  "    func: &impl Fn(Key, &Source, u32) -> (bool, u32),\n",
  ") -> impl Fn(Key, &Source, u32) -> (bool, u32) + '_ {\n",
  "    move |parent: Key, source: &Source, position: u32| {\n",
  "        _and_predicate_kernel(parent, source, position, func)\n",
  "    }\n",
  "}\n",
  "\n",
  "pub fn _not_predicate_kernel(\n",
  "    parent: Key,\n",
  "    source: &Source,\n",
  "    position: u32,\n",
  "    func: impl Fn(Key, &Source, u32) -> (bool, u32),\n",
  ") -> (bool, u32) {\n",
  "    let temp_position = position;\n",
  "    let (valid, _position) = func(parent, source, temp_position);\n",
  "    if !valid {\n",
  "        return (true, temp_position);\n",
  "    }\n",
  "    (false, temp_position)\n",
  "}\n",
  "\n",
  "pub fn _not_predicate(\n",
  "    func: &impl Fn(Key, &Source, u32) -> (bool, u32),\n",
  ") -> impl Fn(Key, &Source, u32) -> (bool, u32) + '_ {\n",
  "    move |parent: Key, source: &Source, position: u32| {\n",
  "        _not_predicate_kernel(parent, source, position, func)\n",
  "    }\n",
  "}\n",
  "\n",
  "pub fn _one_or_more_kernel(\n",
  "    parent: Key,\n",
  "    source: &Source,\n",
  "    position: u32,\n",
  "    func: impl Fn(Key, &Source, u32) -> (bool, u32),\n",
  ") -> (bool, u32) {\n",
  "    let mut temp_position = position;\n",
  "    let (valid, position) = func(parent, source, temp_position);\n",
  "    if !valid {\n",
  "        return (false, temp_position);\n",
  "    }\n",
  "    temp_position = position;\n",
  "    loop {\n",
  "        let (valid, position) = func(parent, source, temp_position);\n",
  "        if !valid {\n",
  "            break;\n",
  "        }\n",
  "        temp_position = position;\n",
  "    }\n",
  "    (true, temp_position)\n",
  "}\n",
  "\n",
  "pub fn _one_or_more(\n",
  "    func: &impl Fn(Key, &Source, u32) -> (bool, u32),\n",
  ") -> impl Fn(Key, &Source, u32) -> (bool, u32) + '_ {\n",
  "    move |parent: Key, source: &Source, position: u32| {\n",
  "        _one_or_more_kernel(parent, source, position, func)\n",
  "    }\n",
  "}\n",
  "\n",
  "pub fn _optional_kernel(\n",
  "    parent: Key,\n",
  "    source: &Source,\n",
  "    position: u32,\n",
  "    func: impl Fn(Key, &Source, u32) -> (bool, u32),\n",
  ") -> (bool, u32) {\n",
  "    let temp_position = position;\n",
  "    let (valid, position) = func(parent, source, temp_position);\n",
  "    if !valid {\n",
  "        return (true, temp_position);\n",
  "    }\n",
  "    (true, position)\n",
  "}\n",
  "\n",
  "pub fn _optional(\n",
  "    func: &impl Fn(Key, &Source, u32) -> (bool, u32),\n",
  ") -> impl Fn(Key, &Source, u32) -> (bool, u32) + '_ {\n",
  "    move |parent: Key, source: &Source, position: u32| {\n",
  "        _optional_kernel(parent, source, position, func)\n",
  "    }\n",
  "}\n",
  "\n",
  "pub fn _ordered_choice_kernel(\n",
  "    parent: Key,\n",
  "    source: &Source,\n",
  "    position: u32,\n",
  "    func_lhs: impl Fn(Key, &Source, u32) -> (bool, u32),\n",
  "    func_rhs: impl Fn(Key, &Source, u32) -> (bool, u32),\n",
  ") -> (bool, u32) {\n",
  "    let temp_position = position;\n",
  "    let (valid, position) = func_lhs(parent, source, position);\n",
  "    if valid {\n",
  "        return (true, position);\n",
  "    }\n",
  "    let position = temp_position;\n",
  "    let (valid, position) = func_rhs(parent, source, position);\n",
  "\n",
  "    if valid {\n",
  "        (true, position)\n",
  "    } else {\n",
  "        (false, temp_position)\n",
  "    }\n",
  "}\n",
  "\n",
  "pub fn _ordered_choice<'a>(\n",
  "    func_lhs: &'a impl Fn(Key, &Source, u32) -> (bool, u32),\n",
  "    func_rhs: &'a impl Fn(Key, &Source, u32) -> (bool, u32),\n",
  ") -> impl Fn(Key, &Source, u32) -> (bool, u32) + 'a {\n",
  "    move |parent: Key, source: &Source, position: u32| {\n",
  "        _ordered_choice_kernel(parent, source, position, func_lhs, func_rhs)\n",
  "    }\n",
  "}\n",
  "\n",
  "pub fn _sequence_kernel(\n",
  "    parent: Key,\n",
  "    source: &Source,\n",
  "    position: u32,\n",
  "    func_lhs: impl Fn(Key, &Source, u32) -> (bool, u32),\n",
  "    func_rhs: impl Fn(Key, &Source, u32) -> (bool, u32),\n",
  ") -> (bool, u32) {\n",
  "    let temp_position = position;\n",
  "\n",
  "    let (lhs_bool, position) = func_lhs(parent, source, position);\n",
  "\n",
  "    if lhs_bool {\n",
  "        let (rhs_bool, position) = func_rhs(parent, source, position);\n",
  "        if rhs_bool {\n",
  "            return (true, position);\n",
  "        }\n",
  "    }\n",
  "    (false, temp_position)\n",
  "}\n",
  "\n",
  "pub fn _sequence<'a>(\n",
  "    func_lhs: &'a impl Fn(Key, &Source, u32) -> (bool, u32),\n",
  "    func_rhs: &'a impl Fn(Key, &Source, u32) -> (bool, u32),\n",
  ") -> impl Fn(Key, &Source, u32) -> (bool, u32) + 'a {\n",
  "    move |parent: Key, source: &Source, position: u32| {\n",
  "        _sequence_kernel(parent, source, position, func_lhs, func_rhs)\n",
  "    }\n",
  "}\n",
  "\n",
  "pub fn _subexpression_kernel(\n",
  "    parent: Key,\n",
  "    source: &Source,\n",
  "    position: u32,\n",
  "    func: impl Fn(Key, &Source, u32) -> (bool, u32),\n",
  ") -> (bool, u32) {\n",
  "    let temp_position = position;\n",
  "    let (valid, position) = func(parent, source, temp_position);\n",
  "    if !valid {\n",
  "        return (false, temp_position);\n",
  "    }\n",
  "    (true, position)\n",
  "}\n",
  "\n",
  "pub fn _subexpression(\n",
  "    func: &impl Fn(Key, &Source, u32) -> (bool, u32),\n",
  ") -> impl Fn(Key, &Source, u32) -> (bool, u32) + '_ {\n",
  "    move |parent: Key, source: &Source, position: u32| {\n",
  "        _subexpression_kernel(parent, source, position, func)\n",
  "    }\n",
  "}\n",
  "\n",
  "pub fn _terminal_kernel(source: &Source, position: u32, chr: u8) -> (bool, u32) {\n",
  "    let char = source.get_char(position);\n",
  "    //let char = char.expect(\"\\nThis error only happens with invalid grammar. E.g **. This should be disallowed at generation time!!\\n\");\n",
  "    if char == Some(chr) {\n",
  "        (true, position + 1)\n",
  "    } else {\n",
  "        (false, position)\n",
  "    }\n",
  "}\n",
  "\n",
  "pub fn _terminal(chr: u8) -> impl Fn(Key, &Source, u32) -> (bool, u32) {\n",
  "    move |_parent: Key, source: &Source, position: u32| _terminal_kernel(source, position, chr)\n",
  "}\n",
  "\n",
  "pub fn _zero_or_more_kernel(\n",
  "    parent: Key,\n",
  "    source: &Source,\n",
  "    position: u32,\n",
  "    func: impl Fn(Key, &Source, u32) -> (bool, u32),\n",
  ") -> (bool, u32) {\n",
  "    let mut temp_position = position;\n",
  "    loop {\n",
  "        let (valid, position) = func(parent, source, temp_position);\n",
  "        if !valid {\n",
  "            break;\n",
  "        }\n",
  "        temp_position = position;\n",
  "    }\n",
  "    // Always true but may consume zero positions\n",
  "    (true, temp_position)\n",
  "}\n",
  "\n",
  "pub fn _zero_or_more(\n",
  "    func: &impl Fn(Key, &Source, u32) -> (bool, u32),\n",
  ") -> impl Fn(Key, &Source, u32) -> (bool, u32) + '_ {\n",
  "    move |parent: Key, source: &Source, position: u32| {\n",
  "        _zero_or_more_kernel(parent, source, position, func)\n",
  "    }\n",
  "}\n",
  "\n",
  "// Optimizations\n",
  "\n",
  "fn _string_terminal_kernel_ascii_opt(source: &Source, position: u32, data: &[u8]) -> (bool, u32) {\n",
  "    let mut end_position = position;\n",
  "    for char in data {\n",
  "        let s = match source.get_char(end_position) {\n",
  "            None => return (false, position),\n",
  "            Some(val) => val,\n",
  "        };\n",
  "        if *char == s {\n",
  "            end_position += 1;\n",
  "        } else {\n",
  "            return (false, position);\n",
  "        }\n",
  "    }\n",
  "    (true, end_position)\n",
  "}\n",
  "\n",
  "pub fn _string_terminal_opt_ascii(data: &[u8]) -> impl Fn(Key, &Source, u32) -> (bool, u32) + '_ {\n",
  "    move |_parent: Key, source: &Source, position: u32| {\n",
  "        _string_terminal_kernel_ascii_opt(source, position, data)\n",
  "    }\n",
  "}\n",
  "\n",
  "fn _ordered_choice_match_range_kernel(\n",
  "    source: &Source,\n",
  "    position: u32,\n",
  "    start: u32,\n",
  "    end: u32,\n",
  ") -> (bool, u32) {\n",
  "    let chr = source.get_char(position);\n",
  "    match chr {\n",
  "        Some(value) => {\n",
  "            if (value as u32 >= start) && (value as u32 <= end) {\n",
  "                (true, position + 1)\n",
  "            } else {\n",
  "                (false, position)\n",
  "            }\n",
  "        }\n",
  "        None => (false, position),\n",
  "    }\n",
  "}\n",
  "\n",
  "pub fn _ordered_choice_match_range(\n",
  "    start: u32,\n",
  "    end: u32,\n",
  ") -> impl Fn(Key, &Source, u32) -> (bool, u32) {\n",
  "    move |_parent: Key, source: &Source, position: u32| {\n",
  "        _ordered_choice_match_range_kernel(source, position, start, end)\n",
  "    }\n",
  "}\n"]

/-- parser/src/var_name.rs:1-268 -/
def varName : List String := [
  "use super::{Context, Rules, Source};\n",
  "use crate::{user_state, Key, UserState};\n",
  "use core::{cell::RefCell, panic};\n",
  "use std::{collections::BTreeSet, thread::current};\n",
  "\n",
  "fn memoized_behaviour<T: Context>(\n",
  "    context: &RefCell<T>,\n",
  "    _rule: Rules,\n",
  "    parent: Key,\n",
  "    is_true: bool,\n",
  "    _start_position: u32,\n",
  "    end_position: u32,\n",
  "    memoized_key: Key,\n",
  ") -> (bool, u32) {\n",
  "    context.borrow_mut().connect(parent, memoized_key);\n",
  "    (is_true, end_position)\n",
  "}\n",
  "\n",
  "#[allow(clippy::type_complexity)]\n",
  "fn default_behaviour<T: Context>(\n",
  "    user_state: &RefCell<UserState>,\n",
  "    source: &Source,\n",
  "    func: fn(&RefCell<UserState>, Key, &RefCell<T>, &Source, u32) -> (bool, u32),\n",
  "    context: &RefCell<T>,\n",
  "    rule: Rules,\n",
  "    parent: Key,\n",
  "    start_position: u32,\n",
  ") -> (bool, u32) {\n",
  "    let current_key = context.borrow_mut().reserve_publisher_entry(rule);\n",
  "    let f = func(user_state, current_key, context, source, start_position);\n",
  "    let mut c = context.borrow_mut();\n",
  "    c.create_cache_entry(rule, f.0, start_position, f.1, current_key);\n",
  "    c.update_publisher_entry(current_key, f.0, start_position, f.1);\n",
  "    // TODO: Change to only connect on success to makes things a little faster\n",
  "    // Unsure how it impacts correctness on LR so needs testing first.\n",
  "    c.connect(parent, current_key);\n",
  "    f\n",
  "}\n",
  "\n",
  "#[allow(clippy::type_complexity)]\n",
  "pub fn _var_name<'a, T: Context>(\n",
  "    user_state: &'a RefCell<UserState>,\n",
  "    rule: Rules,\n",
  "    context: &'a RefCell<T>,\n",
  "    func: fn(&RefCell<UserState>, Key, &RefCell<T>, &Source, u32) -> (bool, u32),\n",
  ") -> impl Fn(Key, &Source, u32) -> (bool, u32) + 'a {\n",
  "    move |parent: Key, source: &Source, position: u32| {\n",
  "        _var_name_kernel(user_state, rule, context, parent, source, position, func)\n",
  "    }\n",
  "}\n",
  "\n",
  "#[allow(clippy::type_complexity)]\n",
  "pub fn _var_name_kernel<T: Context>(\n",
  "    user_state: &RefCell<UserState>,\n",
  "    rule: Rules,\n",
  "    context: &RefCell<T>,\n",
  "    parent: Key,\n",
  "    source: &Source,\n",
  "    position: u32,\n",
  "    func: fn(&RefCell<UserState>, Key, &RefCell<T>, &Source, u32) -> (bool, u32),\n",
  ") -> (bool, u32) {\n",
  "    let memo = context.borrow().check(rule, position);\n",
  "    match memo {\n",
  "        Some((is_true, end_position, memoized_key)) => memoized_behaviour(\n",
  "            context,\n",
  "            rule,\n",
  "            parent,\n",
  "            is_true,\n",
  "            position,\n",
  "            end_position,\n",
  "            memoized_key,\n",
  "        ),\n",
  "        None => default_behaviour(user_state, source, func, context, rule, parent, position),\n",
  "    }\n",
  "}\n",
  "\n",
  "#[allow(clippy::type_complexity)]\n",
  "pub fn _var_name_indirect_left_recursion<'a, T: Context>(\n",
  "    user_state: &'a RefCell<UserState>,\n",
  "    involved_set: &'a Vec<Rules>,\n",
  "    rule: Rules,\n",
  "    context: &'a RefCell<T>,\n",
  "    func: fn(&RefCell<UserState>, Key, &RefCell<T>, &Source, u32) -> (bool, u32),\n",
  ") -> impl Fn(Key, &Source, u32) -> (bool, u32) + 'a {\n",
  "    move |parent: Key, source: &Source, position: u32| {\n",
  "        _var_name_kernel_indirect_left_recursion(\n",
  "            user_state,\n",
  "            involved_set,\n",
  "            rule,\n",
  "            context,\n",
  "            parent,\n",
  "            source,\n",
  "            position,\n",
  "            func,\n",
  "        )\n",
  "    }\n",
  "}\n",
  "\n",
  "fn convert_vec_to_btree_set(involved_set: &Vec<Rules>) -> BTreeSet<Rules> {\n",
  "    let mut involved: BTreeSet<Rules> = BTreeSet::new();\n",
  "    for r in involved_set {\n",
  "        involved.insert(*r);\n",
  "    }\n",
  "    involved\n",
  "}\n",
  "\n",
  "#[allow(clippy::too_many_arguments)]\n",
  "#[allow(clippy::type_complexity)]\n",
  "pub fn _var_name_kernel_growth_function<T: Context>(\n",
  "    user_state: &RefCell<UserState>,\n",
  "    involved_set: &Vec<Rules>,\n",
  "    rule: Rules,\n",
  "    context: &RefCell<T>,\n",
  "    parent: Key,\n",
  "    source: &Source,\n",
  "    position: u32,\n",
  "    func: fn(&RefCell<UserState>, Key, &RefCell<T>, &Source, u32) -> (bool, u32),\n",
  "    last_lr_position: Option<(Rules, u32)>,\n",
  ") -> (bool, u32) {\n",
  "    // If head is none, return what is stored in the memo table.\n",
  "    let mut result: (bool, u32);\n",
  "    let mut last_result = (false, position);\n",
  "    let mut last_key: Key = context.borrow_mut().reserve_publisher_entry(rule);\n",
  "    context\n",
  "        .borrow_mut()\n",
  "        .update_publisher_entry(last_key, false, 0, 0);\n",
  "    let mut current_key = context.borrow_mut().reserve_publisher_entry(rule);\n",
  "    let previous_active_lr_position = last_lr_position;\n",
  "\n",
  "    {\n",
  "        let involved_btree = convert_vec_to_btree_set(involved_set);\n",
  "\n",
  "        // Creates head so on calling func again it goes to other branch\n",
  "        context\n",
  "            .borrow_mut()\n",
  "            .set_head(position, rule, involved_btree);\n",
  "        loop {\n",
  "            context.borrow_mut().reinitialize_eval_set(rule, position);\n",
  "            result = func(user_state, current_key, context, source, position);\n",
  "            let memo_result = context.borrow_mut().check(rule, position);\n",
  "            match memo_result {\n",
  "                None => {}\n",
  "                Some(memo_result) => {\n",
  "                    current_key = memo_result.2;\n",
  "                    result = (memo_result.0, memo_result.1);\n",
  "                }\n",
  "            }\n",
  "            context\n",
  "                .borrow_mut()\n",
  "                .update_publisher_entry(current_key, result.0, position, result.1);\n",
  "            if !result.0 || (result.1 <= last_result.1) {\n",
  "                context.borrow_mut().connect(parent, last_key);\n",
  "                context\n",
  "                    .borrow_mut()\n",
  "                    .set_current_active_lr_position(previous_active_lr_position);\n",
  "                context.borrow_mut().create_cache_entry(\n",
  "                    rule,\n",
  "                    last_result.0,\n",
  "                    position,\n",
  "                    last_result.1,\n",
  "                    last_key,\n",
  "                );\n",
  "                break;\n",
  "            }\n",
  "            last_result = result;\n",
  "            last_key = current_key;\n",
  "            current_key = context.borrow_mut().reserve_publisher_entry(rule);\n",
  "        }\n",
  "    }\n",
  "    last_result\n",
  "}\n",
  "\n",
  "pub fn should_go_into_growth_function<T: Context>(\n",
  "    rule: Rules,\n",
  "    context: &RefCell<T>,\n",
  "    position: u32,\n",
  ") -> (bool, Option<(Rules, u32)>) {\n",
  "    // Keeps triggering everytime which it should not do.\n",
  "    let mut ctx = context.borrow_mut();\n",
  "    let active_lr_position = ctx.get_current_active_lr_position();\n",
  "    match active_lr_position {\n",
  "        None => {\n",
  "            let last_lr_position = ctx.get_current_active_lr_position();\n",
  "            ctx.set_current_active_lr_position(Some((rule, position)));\n",
  "            (true, last_lr_position)\n",
  "        }\n",
  "        Some(lr_position) => {\n",
  "            let head = ctx.check_head(rule, position);\n",
  "            if head.is_some() {\n",
  "                // We don't want to grow more than once per rule, position pair.\n",
  "                (false, None)\n",
  "            } else if ctx.rule_in_involved_set(lr_position, rule) {\n",
  "                (false, None)\n",
  "            } else {\n",
  "                let last_lr_position = ctx.get_current_active_lr_position();\n",
  "                ctx.set_current_active_lr_position(Some((rule, position)));\n",
  "                (true, last_lr_position)\n",
  "            }\n",
  "        }\n",
  "    }\n",
  "}\n",
  "\n",
  "#[allow(clippy::type_complexity)]\n",
  "#[allow(clippy::too_many_arguments)]\n",
  "pub fn _var_name_kernel_indirect_left_recursion<T: Context>(\n",
  "    user_state: &RefCell<UserState>,\n",
  "    involved_set: &Vec<Rules>,\n",
  "    rule: Rules,\n",
  "    context: &RefCell<T>,\n",
  "    parent: Key,\n",
  "    source: &Source,\n",
  "    position: u32,\n",
  "    func: fn(&RefCell<UserState>, Key, &RefCell<T>, &Source, u32) -> (bool, u32),\n",
  ") -> (bool, u32) {\n",
  "    let should = should_go_into_growth_function(rule, context, position);\n",
  "    if should.0 {\n",
  "        _var_name_kernel_growth_function(\n",
  "            user_state,\n",
  "            involved_set,\n",
  "            rule,\n",
  "            context,\n",
  "            parent,\n",
  "            source,\n",
  "            position,\n",
  "            func,\n",
  "            should.1,\n",
  "        )\n",
  "    } else {\n",
  "        // Runs if head is Some\n",
  "        // Do not evaluate any rule that is not involved in this left recursion(i.e is not in the eval set.)\n",
  "        let active_lr_position = context\n",
  "            .borrow()\n",
  "            .get_current_active_lr_position()\n",
  "            .expect(\"Active LR Should exist when in LR code.\");\n",
  "        let is_in_eval_set = context.borrow().rule_in_eval_set(active_lr_position, rule);\n",
  "        if is_in_eval_set {\n",
  "            let current_key = context.borrow_mut().reserve_publisher_entry(rule);\n",
  "            context\n",
  "                .borrow_mut()\n",
  "                .remove_from_eval_set(active_lr_position, rule);\n",
  "            let result = func(user_state, current_key, context, source, position);\n",
  "            context\n",
  "                .borrow_mut()\n",
  "                .update_publisher_entry(current_key, result.0, position, result.1);\n",
  "            context.borrow_mut().create_cache_entry(\n",
  "                rule,\n",
  "                result.0,\n",
  "                position,\n",
  "                result.1,\n",
  "                current_key,\n",
  "            );\n",
  "            context.borrow_mut().connect(parent, current_key);\n",
  "            result\n",
  "        } else {\n",
  "            let memo = context.borrow().check(rule, position);\n",
  "\n",
  "            match memo {\n",
  "                Some(memo) => {\n",
  "                    context\n",
  "                        .borrow_mut()\n",
  "                        .connect_if_not_connected(parent, memo.2);\n",
  "                    (memo.0, memo.1)\n",
  "                }\n",
  "                None => (false, position),\n",
  "            }\n",
  "        }\n",
  "    }\n",
  "}\n"]

/-- parser/src/parse.rs:1-23 -/
def parse : List String := [
  "use crate::parser::grammar;\n",
  "use crate::var_name::_var_name;\n",
  "use crate::{context::BasicContext, rules::RULES_SIZE, Key};\n",
  "\n",
  "use super::*;\n",
  "use core::cell::RefCell;\n",
  "use std::env;\n",
  "use std::fs::{canonicalize, read_to_string};\n",
  "\n",
  "pub fn parse(source: &str) -> (bool, u32, BasicPublisher) {\n",
  "    let src_len = source.len() as u32;\n",
  "    let source = Source::new(source);\n",
  "    let position: u32 = 0;\n",
  "    let context = RefCell::new(BasicContext::new(src_len as usize, RULES_SIZE as usize));\n",
  "    let user_state = RefCell::new(UserState::new());\n",
  "    let result: (bool, u32);\n",
  "    {\n",
  "        let executor = _var_name(&user_state, Rules::Grammar, &context, grammar);\n",
  "        result = executor(Key(0), &source, position);\n",
  "    }\n",
  "    let gen_code = context.into_inner().get_publisher().clear_false();\n",
  "    (result.0, result.1, gen_code)\n",
  "}\n"]

/-- parser/src/user_state.rs:1-20 -/
def userState : List String := [
  "// For non-context sensitive grammars this is not needed at all.\n",
  "// This can be used in the hooked calls to allow you to carry some specific state that is needed for your parser.\n",
  "// For example C would need to track typedefs to parse correctly\n",
  "// Non context sensitive grammars might still decide to use it to track e.g statistical information etc.\n",
  "// Point is this is passed through the generated layers to hooked calls allowing you to do whatever you want.\n",
  "// For now this is a struct, it may become a trait in future to allow you to easily swap out implementations for e,g testing.\n",
  "// If you do not need this at all you can just leave it. The compiler will optimise it out anyway as it does nothing by default\n",
  "// and isn't used anywhere by default either.\n",
  "pub struct UserState;\n",
  "impl Default for UserState {\n",
  "    fn default() -> Self {\n",
  "        Self::new()\n",
  "    }\n",
  "}\n",
  "\n",
  "impl UserState {\n",
  "    pub fn new() -> Self {\n",
  "        UserState\n",
  "    }\n",
  "}\n"]

/-- parser/src/hooked_calls.rs:1-1 -/
def hookedCalls : List String := [
  "\n"]

/-- examples/example_1_parser/src/context.rs:1-193 -/
def exContext : List String := [
  "#[allow(unused_imports)] // So that I don't need to keep adding or removing whilst testing\n",
  "use super::Key;\n",
  "use crate::{\n",
  "    Rules,\n",
  "    cache::{DirectLeftRecursionCache, Head, IndirectLeftRecursionCache},\n",
  "    publisher::{DirectLeftRecursionPublisher, IndirectLeftRecursionPublisher},\n",
  "};\n",
  "use std::collections::BTreeSet;\n",
  "\n",
  "use super::{BasicCache, BasicPublisher};\n",
  "\n",
  "pub trait Context\n",
  "where\n",
  "    Self::C: core::fmt::Debug, // Cache\n",
  "    Self::P: core::fmt::Debug,\n",
  "{\n",
  "    // Associated types so I can tie specific Cache/Publisher pairs together since they can be mutually exclusive\n",
  "    // I.e NOOP Cache prohibits IndirectLeftRecursionPublisher since you need a cache to do indirect left recursion.\n",
  "    type C; // Cache\n",
  "    type P; // Publisher\n",
  "    #[allow(dead_code)]\n",
  "    fn new(size_of_source: usize, number_of_rules: usize) -> Self;\n",
  "    #[allow(dead_code)]\n",
  "    fn print_cache(&self);\n",
  "    #[allow(dead_code)]\n",
  "    fn print_publisher(&self);\n",
  "    fn check(&self, rule: Rules, start_position: u32) -> Option<(bool, u32, Key)>;\n",
  "    fn connect(&mut self, parent_key: Key, child_key: Key);\n",
  "    fn reserve_publisher_entry(&mut self, rule: Rules) -> Key;\n",
  "    fn create_cache_entry(\n",
  "        &mut self,\n",
  "        rule: Rules,\n",
  "        is_true: bool,\n",
  "        start_position: u32,\n",
  "        end_position: u32,\n",
  "        key: Key,\n",
  "    );\n",
  "    fn connect_if_not_connected(&mut self, parent_index: Key, child_index: Key);\n",
  "    fn update_publisher_entry(\n",
  "        &mut self,\n",
  "        key: Key,\n",
  "        is_true: bool,\n",
  "        start_position: u32,\n",
  "        end_position: u32,\n",
  "    );\n",
  "\n",
  "    fn check_head(&self, rule: Rules, start_position: u32) -> Option<&Head>;\n",
  "    fn set_head(&mut self, start_position: u32, head_rule: Rules, involved_set: BTreeSet<Rules>);\n",
  "    fn rule_in_eval_set(&self, head_index: (Rules, u32), rule: Rules) -> bool;\n",
  "    fn rule_in_involved_set(&self, head: (Rules, u32), rule: Rules) -> bool;\n",
  "\n",
  "    fn remove_from_eval_set(&mut self, head_index: (Rules, u32), rule: Rules);\n",
  "    fn reinitialize_eval_set(&mut self, rule: Rules, start_position: u32);\n",
  "    fn get_publisher(self) -> Self::P;\n",
  "    fn print_node(&self, node: Key);\n",
  "    fn get_current_active_lr_position(&self) -> Option<(Rules, u32)>;\n",
  "    fn set_current_active_lr_position(&mut self, position: Option<(Rules, u32)>);\n",
  "}\n",
  "\n",
  "pub struct BasicContext {\n",
  "    cache: BasicCache,\n",
  "    publisher: BasicPublisher,\n",
  "}\n",
  "#[allow(dead_code)]\n",
  "pub struct DirectLeftRecursionContext {\n",
  "    cache: DirectLeftRecursionCache,\n",
  "    publisher: DirectLeftRecursionPublisher,\n",
  "}\n",
  "#[allow(dead_code)]\n",
  "pub struct IndirectLeftRecursionContext {\n",
  "    cache: IndirectLeftRecursionCache,\n",
  "    publisher: IndirectLeftRecursionPublisher,\n",
  "}\n",
  "\n",
  "impl Context for BasicContext {\n",
  "    type C = BasicCache;\n",
  "    type P = BasicPublisher;\n",
  "\n",
  "    fn new(size_of_source: usize, number_of_rules: usize) -> Self {\n",
  "        BasicContext {\n",
  "            cache: Self::C::new(),\n",
  "            publisher: Self::P::new(size_of_source, number_of_rules),\n",
  "        }\n",
  "    }\n",
  "\n",
  "    fn get_current_active_lr_position(&self) -> Option<(Rules, u32)> {\n",
  "        self.cache.get_current_active_lr_position()\n",
  "    }\n",
  "    fn set_current_active_lr_position(&mut self, position: Option<(Rules, u32)>) {\n",
  "        self.cache.set_current_active_lr_position(position);\n",
  "    }\n",
  "\n",
  "    fn reinitialize_eval_set(&mut self, rule: Rules, start_position: u32) {\n",
  "        self.cache.reinitialize_eval_set(rule, start_position);\n",
  "    }\n",
  "    #[allow(dead_code)]\n",
  "    fn print_cache(&self) {\n",
  "        println!(\"{:?}\", &self.cache)\n",
  "    }\n",
  "    fn print_publisher(&self) {\n",
  "        println!(\"\\n\\n{:?}\", &self.publisher)\n",
  "    }\n",
  "    fn print_node(&self, node: Key) {\n",
  "        self.publisher.print(node, None);\n",
  "    }\n",
  "\n",
  "    fn reserve_publisher_entry(&mut self, rule: Rules) -> Key {\n",
  "        self.publisher.add_node(rule, 0, 0, false)\n",
  "    }\n",
  "    fn connect(&mut self, parent_key: Key, child_key: Key) {\n",
  "        self.publisher.connect(parent_key, child_key);\n",
  "    }\n",
  "    fn create_cache_entry(\n",
  "        &mut self,\n",
  "        rule: Rules,\n",
  "        is_true: bool,\n",
  "        start_position: u32,\n",
  "        end_position: u32,\n",
  "        key: Key,\n",
  "    ) {\n",
  "        self.cache\n",
  "            .insert(rule, is_true, start_position, end_position, key);\n",
  "    }\n",
  "\n",
  "    fn update_publisher_entry(\n",
  "        &mut self,\n",
  "        key: Key,\n",
  "        is_true: bool,\n",
  "        start_position: u32,\n",
  "        end_position: u32,\n",
  "    ) {\n",
  "        self.publisher.set_node_result(key, is_true);\n",
  "        self.publisher.set_node_start_position(key, start_position);\n",
  "        self.publisher.set_node_end_position(key, end_position);\n",
  "    }\n",
  "    fn check(&self, rule: Rules, start_position: u32) -> Option<(bool, u32, Key)> {\n",
  "        self.cache.check(rule, start_position)\n",
  "    }\n",
  "    fn check_head(&self, rule: Rules, start_position: u32) -> Option<&Head> {\n",
  "        self.cache.check_head(rule, start_position)\n",
  "    }\n",
  "\n",
  "    fn rule_in_involved_set(&self, head: (Rules, u32), rule: Rules) -> bool {\n",
  "        self.cache.rule_in_involved_set(head, rule)\n",
  "    }\n",
  "    fn connect_if_not_connected(&mut self, parent_index: Key, child_index: Key) {\n",
  "        self.publisher\n",
  "            .connect_if_not_connected(parent_index, child_index);\n",
  "    }\n",
  "    fn set_head(&mut self, start_position: u32, head_rule: Rules, involved_set: BTreeSet<Rules>) {\n",
  "        self.cache.set_head(start_position, head_rule, involved_set);\n",
  "    }\n",
  "    fn rule_in_eval_set(&self, head_index: (Rules, u32), rule: Rules) -> bool {\n",
  "        self.cache.rule_in_eval_set(head_index, rule)\n",
  "    }\n",
  "    fn remove_from_eval_set(&mut self, head_index: (Rules, u32), rule: Rules) {\n",
  "        self.cache.remove_from_eval_set(head_index, rule);\n",
  "    }\n",
  "\n",
  "    fn get_publisher(self) -> Self::P {\n",
  "        self.publisher\n",
  "    }\n",
  "}\n",
  "\n",
  "#[cfg(test)]\n",
  "mod tests {\n",
  "    use super::*;\n",
  "    use core::cell::RefCell;\n",
  "\n",
  "    #[test]\n",
  "    fn test() {\n",
  "        let context = BasicContext {\n",
  "            cache: BasicCache::new(),\n",
  "            publisher: BasicPublisher::new(0, 0),\n",
  "        };\n",
  "        context.print_cache();\n",
  "        context.print_publisher();\n",
  "    }\n",
  "    #[test]\n",
  "    fn test3() {\n",
  "        let context = BasicContext::new(0, 0);\n",
  "        context.print_cache();\n",
  "        context.print_publisher();\n",
  "    }\n",
  "\n",
  "    #[test]\n",
  "    fn test2() {\n",
  "        let context: RefCell<BasicContext> = RefCell::new(BasicContext::new(0, 0));\n",
  "        let borrowed_context = context.borrow();\n",
  "        borrowed_context.print_cache();\n",
  "        borrowed_context.print_publisher();\n",
  "    }\n",
  "}\n"]

/-- examples/example_1_parser/src/var_name.rs:1-268 -/
def exVarName : List String := [
  "use super::{Context, Rules, Source};\n",
  "use crate::{Key, UserState, user_state};\n",
  "use core::{cell::RefCell, panic};\n",
  "use std::{collections::BTreeSet, thread::current};\n",
  "\n",
  "fn memoized_behaviour<T: Context>(\n",
  "    context: &RefCell<T>,\n",
  "    _rule: Rules,\n",
  "    parent: Key,\n",
  "    is_true: bool,\n",
  "    _start_position: u32,\n",
  "    end_position: u32,\n",
  "    memoized_key: Key,\n",
  ") -> (bool, u32) {\n",
  "    context.borrow_mut().connect(parent, memoized_key);\n",
  "    (is_true, end_position)\n",
  "}\n",
  "\n",
  "#[allow(clippy::type_complexity)]\n",
  "fn default_behaviour<T: Context>(\n",
  "    user_state: &RefCell<UserState>,\n",
  "    source: &Source,\n",
  "    func: fn(&RefCell<UserState>, Key, &RefCell<T>, &Source, u32) -> (bool, u32),\n",
  "    context: &RefCell<T>,\n",
  "    rule: Rules,\n",
  "    parent: Key,\n",
  "    start_position: u32,\n",
  ") -> (bool, u32) {\n",
  "    let current_key = context.borrow_mut().reserve_publisher_entry(rule);\n",
  "    let f = func(user_state, current_key, context, source, start_position);\n",
  "    let mut c = context.borrow_mut();\n",
  "    c.create_cache_entry(rule, f.0, start_position, f.1, current_key);\n",
  "    c.update_publisher_entry(current_key, f.0, start_position, f.1);\n",
  "    // TODO: Change to only connect on success to makes things a little faster\n",
  "    // Unsure how it impacts correctness on LR so needs testing first.\n",
  "    c.connect(parent, current_key);\n",
  "    f\n",
  "}\n",
  "\n",
  "#[allow(clippy::type_complexity)]\n",
  "pub fn _var_name<'a, T: Context>(\n",
  "    user_state: &'a RefCell<UserState>,\n",
  "    rule: Rules,\n",
  "    context: &'a RefCell<T>,\n",
  "    func: fn(&RefCell<UserState>, Key, &RefCell<T>, &Source, u32) -> (bool, u32),\n",
  ") -> impl Fn(Key, &Source, u32) -> (bool, u32) + 'a {\n",
  "    move |parent: Key, source: &Source, position: u32| {\n",
  "        _var_name_kernel(user_state, rule, context, parent, source, position, func)\n",
  "    }\n",
  "}\n",
  "\n",
  "#[allow(clippy::type_complexity)]\n",
  "pub fn _var_name_kernel<T: Context>(\n",
  "    user_state: &RefCell<UserState>,\n",
  "    rule: Rules,\n",
  "    context: &RefCell<T>,\n",
  "    parent: Key,\n",
  "    source: &Source,\n",
  "    position: u32,\n",
  "    func: fn(&RefCell<UserState>, Key, &RefCell<T>, &Source, u32) -> (bool, u32),\n",
  ") -> (bool, u32) {\n",
  "    let memo = context.borrow().check(rule, position);\n",
  "    match memo {\n",
  "        Some((is_true, end_position, memoized_key)) => memoized_behaviour(\n",
  "            context,\n",
  "            rule,\n",
  "            parent,\n",
  "            is_true,\n",
  "            position,\n",
  "            end_position,\n",
  "            memoized_key,\n",
  "        ),\n",
  "        None => default_behaviour(user_state, source, func, context, rule, parent, position),\n",
  "    }\n",
  "}\n",
  "\n",
  "#[allow(clippy::type_complexity)]\n",
  "pub fn _var_name_indirect_left_recursion<'a, T: Context>(\n",
  "    user_state: &'a RefCell<UserState>,\n",
  "    involved_set: &'a Vec<Rules>,\n",
  "    rule: Rules,\n",
  "    context: &'a RefCell<T>,\n",
  "    func: fn(&RefCell<UserState>, Key, &RefCell<T>, &Source, u32) -> (bool, u32),\n",
  ") -> impl Fn(Key, &Source, u32) -> (bool, u32) + 'a {\n",
  "    move |parent: Key, source: &Source, position: u32| {\n",
  "        _var_name_kernel_indirect_left_recursion(\n",
  "            user_state,\n",
  "            involved_set,\n",
  "            rule,\n",
  "            context,\n",
  "            parent,\n",
  "            source,\n",
  "            position,\n",
  "            func,\n",
  "        )\n",
  "    }\n",
  "}\n",
  "\n",
  "fn convert_vec_to_btree_set(involved_set: &Vec<Rules>) -> BTreeSet<Rules> {\n",
  "    let mut involved: BTreeSet<Rules> = BTreeSet::new();\n",
  "    for r in involved_set {\n",
  "        involved.insert(*r);\n",
  "    }\n",
  "    involved\n",
  "}\n",
  "\n",
  "#[allow(clippy::too_many_arguments)]\n",
  "#[allow(clippy::type_complexity)]\n",
  "pub fn _var_name_kernel_growth_function<T: Context>(\n",
  "    user_state: &RefCell<UserState>,\n",
  "    involved_set: &Vec<Rules>,\n",
  "    rule: Rules,\n",
  "    context: &RefCell<T>,\n",
  "    parent: Key,\n",
  "    source: &Source,\n",
  "    position: u32,\n",
  "    func: fn(&RefCell<UserState>, Key, &RefCell<T>, &Source, u32) -> (bool, u32),\n",
  "    last_lr_position: Option<(Rules, u32)>,\n",
  ") -> (bool, u32) {\n",
  "    // If head is none, return what is stored in the memo table.\n",
  "    let mut result: (bool, u32);\n",
  "    let mut last_result = (false, position);\n",
  "    let mut last_key: Key = context.borrow_mut().reserve_publisher_entry(rule);\n",
  "    context\n",
  "        .borrow_mut()\n",
  "        .update_publisher_entry(last_key, false, 0, 0);\n",
  "    let mut current_key = context.borrow_mut().reserve_publisher_entry(rule);\n",
  "    let previous_active_lr_position = last_lr_position;\n",
  "\n",
  "    {\n",
  "        let involved_btree = convert_vec_to_btree_set(involved_set);\n",
  "\n",
  "        // Creates head so on calling func again it goes to other branch\n",
  "        context\n",
  "            .borrow_mut()\n",
  "            .set_head(position, rule, involved_btree);\n",
  "        loop {\n",
  "            context.borrow_mut().reinitialize_eval_set(rule, position);\n",
  "            result = func(user_state, current_key, context, source, position);\n",
  "            let memo_result = context.borrow_mut().check(rule, position);\n",
  "            match memo_result {\n",
  "                None => {}\n",
  "                Some(memo_result) => {\n",
  "                    current_key = memo_result.2;\n",
  "                    result = (memo_result.0, memo_result.1);\n",
  "                }\n",
  "            }\n",
  "            context\n",
  "                .borrow_mut()\n",
  "                .update_publisher_entry(current_key, result.0, position, result.1);\n",
  "            if !result.0 || (result.1 <= last_result.1) {\n",
  "                context.borrow_mut().connect(parent, last_key);\n",
  "                context\n",
  "                    .borrow_mut()\n",
  "                    .set_current_active_lr_position(previous_active_lr_position);\n",
  "                context.borrow_mut().create_cache_entry(\n",
  "                    rule,\n",
  "                    last_result.0,\n",
  "                    position,\n",
  "                    last_result.1,\n",
  "                    last_key,\n",
  "                );\n",
  "                break;\n",
  "            }\n",
  "            last_result = result;\n",
  "            last_key = current_key;\n",
  "            current_key = context.borrow_mut().reserve_publisher_entry(rule);\n",
  "        }\n",
  "    }\n",
  "    last_result\n",
  "}\n",
  "\n",
  "pub fn should_go_into_growth_function<T: Context>(\n",
  "    rule: Rules,\n",
  "    context: &RefCell<T>,\n",
  "    position: u32,\n",
  ") -> (bool, Option<(Rules, u32)>) {\n",
  "    // Keeps triggering everytime which it should not do.\n",
  "    let mut ctx = context.borrow_mut();\n",
  "    let active_lr_position = ctx.get_current_active_lr_position();\n",
  "    match active_lr_position {\n",
  "        None => {\n",
  "            let last_lr_position = ctx.get_current_active_lr_position();\n",
  "            ctx.set_current_active_lr_position(Some((rule, position)));\n",
  "            (true, last_lr_position)\n",
  "        }\n",
  "        Some(lr_position) => {\n",
  "            let head = ctx.check_head(rule, position);\n",
  "            if head.is_some() {\n",
  "                // We don't want to grow more than once per rule, position pair.\n",
  "                (false, None)\n",
  "            } else if ctx.rule_in_involved_set(lr_position, rule) {\n",
  "                (false, None)\n",
  "            } else {\n",
  "                let last_lr_position = ctx.get_current_active_lr_position();\n",
  "                ctx.set_current_active_lr_position(Some((rule, position)));\n",
  "                (true, last_lr_position)\n",
  "            }\n",
  "        }\n",
  "    }\n",
  "}\n",
  "\n",
  "#[allow(clippy::type_complexity)]\n",
  "#[allow(clippy::too_many_arguments)]\n",
  "pub fn _var_name_kernel_indirect_left_recursion<T: Context>(\n",
  "    user_state: &RefCell<UserState>,\n",
  "    involved_set: &Vec<Rules>,\n",
  "    rule: Rules,\n",
  "    context: &RefCell<T>,\n",
  "    parent: Key,\n",
  "    source: &Source,\n",
  "    position: u32,\n",
  "    func: fn(&RefCell<UserState>, Key, &RefCell<T>, &Source, u32) -> (bool, u32),\n",
  ") -> (bool, u32) {\n",
  "    let should = should_go_into_growth_function(rule, context, position);\n",
  "    if should.0 {\n",
  "        _var_name_kernel_growth_function(\n",
  "            user_state,\n",
  "            involved_set,\n",
  "            rule,\n",
  "            context,\n",
  "            parent,\n",
  "            source,\n",
  "            position,\n",
  "            func,\n",
  "            should.1,\n",
  "        )\n",
  "    } else {\n",
  "        // Runs if head is Some\n",
  "        // Do not evaluate any rule that is not involved in this left recursion(i.e is not in the eval set.)\n",
  "        let active_lr_position = context\n",
  "            .borrow()\n",
  "            .get_current_active_lr_position()\n",
  "            .expect(\"Active LR Should exist when in LR code.\");\n",
  "        let is_in_eval_set = context.borrow().rule_in_eval_set(active_lr_position, rule);\n",
  "        if is_in_eval_set {\n",
  "            let current_key = context.borrow_mut().reserve_publisher_entry(rule);\n",
  "            context\n",
  "                .borrow_mut()\n",
  "                .remove_from_eval_set(active_lr_position, rule);\n",
  "            let result = func(user_state, current_key, context, source, position);\n",
  "            context\n",
  "                .borrow_mut()\n",
  "                .update_publisher_entry(current_key, result.0, position, result.1);\n",
  "            context.borrow_mut().create_cache_entry(\n",
  "                rule,\n",
  "                result.0,\n",
  "                position,\n",
  "                result.1,\n",
  "                current_key,\n",
  "            );\n",
  "            context.borrow_mut().connect(parent, current_key);\n",
  "            result\n",
  "        } else {\n",
  "            let memo = context.borrow().check(rule, position);\n",
  "\n",
  "            match memo {\n",
  "                Some(memo) => {\n",
  "                    context\n",
  "                        .borrow_mut()\n",
  "                        .connect_if_not_connected(parent, memo.2);\n",
  "                    (memo.0, memo.1)\n",
  "                }\n",
  "                None => (false, position),\n",
  "            }\n",
  "        }\n",
  "    }\n",
  "}\n"]

/-- examples/example_1_parser/src/parse.rs:1-23 -/
def exParse : List String := [
  "use crate::parser::grammar;\n",
  "use crate::var_name::_var_name;\n",
  "use crate::{Key, context::BasicContext, rules::RULES_SIZE};\n",
  "\n",
  "use super::*;\n",
  "use core::cell::RefCell;\n",
  "use std::env;\n",
  "use std::fs::{canonicalize, read_to_string};\n",
  "\n",
  "pub fn parse(source: &str) -> (bool, u32, BasicPublisher) {\n",
  "    let src_len = source.len() as u32;\n",
  "    let source = Source::new(source);\n",
  "    let position: u32 = 0;\n",
  "    let context = RefCell::new(BasicContext::new(src_len as usize, RULES_SIZE as usize));\n",
  "    let user_state = RefCell::new(UserState::new());\n",
  "    let result: (bool, u32);\n",
  "    {\n",
  "        let executor = _var_name(&user_state, Rules::Grammar, &context, grammar);\n",
  "        result = executor(Key(0), &source, position);\n",
  "    }\n",
  "    let gen_code = context.into_inner().get_publisher().clear_false();\n",
  "    (result.0, result.1, gen_code)\n",
  "}\n"]

/-- examples/example_11_external_rule_call_parser/src/user_state.rs:1-22 -/
def ex11UserState : List String := [
  "use std::collections::HashSet;\n",
  "\n",
  "// For non-context sensitive grammars this is not needed at all.\n",
  "// This can be used in the hooked calls to allow you to carry some specific state that is needed for your parser.\n",
  "// For example C would need to track typedefs to parse correctly\n",
  "// Non context sensitive grammars might still decide to use it to track e.g statistical information etc.\n",
  "// Point is this is passed through the generated layers to hooked calls allowing you to do whatever you want.\n",
  "// For now this is a struct, it may become a trait in future to allow you to easily swap out implementations for e,g testing.\n",
  "// If you do not need this at all you can just leave it. The compiler will optimise it out anyway as it does nothing by default\n",
  "// and isn't used anywhere by default either.\n",
  "pub struct UserState(pub HashSet<String>);\n",
  "impl Default for UserState {\n",
  "    fn default() -> Self {\n",
  "        Self::new()\n",
  "    }\n",
  "}\n",
  "\n",
  "impl UserState {\n",
  "    pub fn new() -> Self {\n",
  "        UserState(HashSet::new())\n",
  "    }\n",
  "}\n"]

/-- examples/example_11_external_rule_call_parser/src/hooked_calls.rs:1-40 -/
def ex11HookedCalls : List String := [
  "use std::{\n",
  "    any::{Any, TypeId, type_name},\n",
  "    cell::RefCell,\n",
  "    collections::HashSet,\n",
  "};\n",
  "\n",
  "use crate::{BasicContext, Context, Key, Source, user_state::UserState};\n",
  "\n",
  "pub fn unique_line_cache<T: Context>(\n",
  "    user_state: &RefCell<UserState>,\n",
  "    _parent: Key,\n",
  "    _context: &RefCell<T>,\n",
  "    _source: &Source,\n",
  "    _position: u32,\n",
  "    func: &impl Fn(Key, &Source, u32) -> (bool, u32),\n",
  ") -> impl Fn(Key, &Source, u32) -> (bool, u32) {\n",
  "    move |parent: Key, source: &Source, position: u32| {\n",
  "        println!(\"Before function execution\");\n",
  "        let result = func(parent, source, position);\n",
  "        if result.0 {\n",
  "            // If it is indeed a string we will store it in the hashset if it isn't already there and return\n",
  "            // If it is there we will respond with (false, position).\n",
  "            let unique_line = source.get_string(position, result.1).expect(\n",
  "                \"If it crashes here there is a logical error as we should never go out of bounds.\",\n",
  "            );\n",
  "            let mut user_state = user_state.borrow_mut();\n",
  "            let did_not_exist_before = user_state.0.insert(unique_line.to_string());\n",
  "            if did_not_exist_before {\n",
  "                // Did not exist already so we just continue\n",
  "            } else {\n",
  "                // Return false and the start not end position.\n",
  "                return (false, position);\n",
  "            }\n",
  "        }\n",
  "\n",
  "        println!(\"Result is {:?} {:?}\", result.0, result.1);\n",
  "        println!(\"After function execution\");\n",
  "        result\n",
  "    }\n",
  "}\n"]

/-- examples/example_1/src/lib.rs:1-146 -/
def calc1Lib : List String := [
  "use example_1_parser::*;\n",
  "\n",
  "#[allow(dead_code)]\n",
  "fn evaluate_tree(publisher: BasicPublisher, source: &String) -> i64 {\n",
  "    let publisher = publisher.clear_false();\n",
  "    let grammar_node = publisher.get_node(Key(0));\n",
  "    evaluate_tree_kernel(&publisher, source, grammar_node)\n",
  "}\n",
  "#[allow(dead_code)]\n",
  "fn evaluate_tree_kernel(publisher: &BasicPublisher, source: &String, node: &Node) -> i64 {\n",
  "    let mut results: Vec<i64> = Vec::new();\n",
  "    for child_key in node.get_children() {\n",
  "        let child = publisher.get_node(*child_key);\n",
  "        let result: i64;\n",
  "        match child.rule {\n",
  "            Rules::Grammar => {\n",
  "                result = evaluate_tree_kernel(publisher, source, child);\n",
  "                println!(\"Grammar Result: {result}\");\n",
  "            }\n",
  "            Rules::Expr => {\n",
  "                result = evaluate_tree_kernel(publisher, source, child);\n",
  "                println!(\"Expression Result: {result}\");\n",
  "            }\n",
  "            Rules::Addition => {\n",
  "                result = evaluate_tree_kernel(publisher, source, child);\n",
  "                println!(\"Addition Result: {result}\");\n",
  "            }\n",
  "            Rules::Subtraction => {\n",
  "                result = evaluate_tree_kernel(publisher, source, child);\n",
  "                println!(\"Subtraction Result: {result}\");\n",
  "            }\n",
  "            Rules::Integer => {\n",
  "                let integer = child.get_string(source);\n",
  "                println!(\"Integer String: {integer}\");\n",
  "                let integer: i64 = integer.parse().expect(\"Should be valid integer\");\n",
  "                result = integer;\n",
  "                println!(\"Integer Result: {result}\");\n",
  "            }\n",
  "        }\n",
  "        results.push(result);\n",
  "    }\n",
  "    println!(\"Results: {results:?}\");\n",
  "    if node.rule == Rules::Subtraction {\n",
  "        results[1] = -results[1]\n",
  "    }\n",
  "    results.iter().sum()\n",
  "}\n",
  "\n",
  "#[cfg(test)]\n",
  "mod tests {\n",
  "    use crate::evaluate_tree;\n",
  "    use core::cell::RefCell;\n",
  "    use example_1_parser::*;\n",
  "\n",
  "    #[test]\n",
  "    fn test_1() {\n",
  "        let string = \"20+10\".to_string();\n",
  "        let src_len = string.len() as u32;\n",
  "        let source = Source::new(&string);\n",
  "        let position: u32 = 0;\n",
  "        let result: (bool, u32);\n",
  "        let context = RefCell::new(BasicContext::new(src_len as usize, RULES_SIZE as usize));\n",
  "        let user_state: RefCell<UserState> = RefCell::new(UserState);\n",
  "        {\n",
  "            let executor = _var_name(&user_state, Rules::Grammar, &context, grammar);\n",
  "            result = executor(Key(0), &source, position);\n",
  "        }\n",
  "        println!(\"Result: {result:?}\");\n",
  "        //context.borrow().print_cache();\n",
  "        //context.borrow().print_publisher();\n",
  "        let publisher = context.into_inner().get_publisher();\n",
  "        publisher.print(Key(0), Some(true));\n",
  "        assert_eq!((result.0, result.1), (true, src_len));\n",
  "        let result = evaluate_tree(publisher, &string);\n",
  "        assert_eq!(result, 30);\n",
  "    }\n",
  "\n",
  "    #[test]\n",
  "    fn test_2() {\n",
  "        let string = \"20-10\".to_string();\n",
  "        let src_len = string.len() as u32;\n",
  "        let source = Source::new(&string);\n",
  "        let position: u32 = 0;\n",
  "        let result: (bool, u32);\n",
  "        let context = RefCell::new(BasicContext::new(src_len as usize, RULES_SIZE as usize));\n",
  "        let user_state: RefCell<UserState> = RefCell::new(UserState);\n",
  "        {\n",
  "            let executor = _var_name(&user_state, Rules::Grammar, &context, grammar);\n",
  "            result = executor(Key(0), &source, position);\n",
  "        }\n",
  "        println!(\"Result: {result:?}\");\n",
  "        //context.borrow().print_cache();\n",
  "        //context.borrow().print_publisher();\n",
  "        let publisher = context.into_inner().get_publisher();\n",
  "        publisher.print(Key(0), Some(true));\n",
  "        assert_eq!((result.0, result.1), (true, src_len));\n",
  "        let result = evaluate_tree(publisher, &string);\n",
  "        assert_eq!(result, 10);\n",
  "    }\n",
  "\n",
  "    #[test]\n",
  "    fn test_3() {\n",
  "        let string = \"20+10+20\".to_string();\n",
  "        let src_len = string.len() as u32;\n",
  "        let source = Source::new(&string);\n",
  "        let position: u32 = 0;\n",
  "        let result: (bool, u32);\n",
  "        let context = RefCell::new(BasicContext::new(src_len as usize, RULES_SIZE as usize));\n",
  "        let user_state: RefCell<UserState> = RefCell::new(UserState);\n",
  "        {\n",
  "            let executor = _var_name(&user_state, Rules::Grammar, &context, grammar);\n",
  "            result = executor(Key(0), &source, position);\n",
  "        }\n",
  "        println!(\"Result: {result:?}\");\n",
  "        //context.borrow().print_cache();\n",
  "        //context.borrow().print_publisher();\n",
  "        let publisher = context.into_inner().get_publisher();\n",
  "        publisher.print(Key(0), Some(true));\n",
  "        assert_eq!((result.0, result.1), (true, src_len));\n",
  "        let result = evaluate_tree(publisher, &string);\n",
  "        assert_eq!(result, 50);\n",
  "    }\n",
  "\n",
  "    #[test]\n",
  "    fn test_4() {\n",
  "        let string = \"7+5-3\".to_string();\n",
  "        let src_len = string.len() as u32;\n",
  "        let source = Source::new(&string);\n",
  "        let position: u32 = 0;\n",
  "        let result: (bool, u32);\n",
  "        let context = RefCell::new(BasicContext::new(src_len as usize, RULES_SIZE as usize));\n",
  "        let user_state: RefCell<UserState> = RefCell::new(UserState);\n",
  "        {\n",
  "            let executor = _var_name(&user_state, Rules::Grammar, &context, grammar);\n",
  "            result = executor(Key(0), &source, position);\n",
  "        }\n",
  "        println!(\"Result: {result:?}\");\n",
  "        //context.borrow().print_cache();\n",
  "        //context.borrow().print_publisher();\n",
  "        let publisher = context.into_inner().get_publisher();\n",
  "        publisher.print(Key(0), Some(true));\n",
  "        assert_eq!((result.0, result.1), (true, src_len));\n",
  "        let result = evaluate_tree(publisher, &string);\n",
  "        assert_eq!(result, 9);\n",
  "    }\n",
  "}\n"]

/-- examples/example_2/src/lib.rs:1-177 -/
def calc2Lib : List String := [
  "use example_2_parser::*;\n",
  "#[allow(dead_code)]\n",
  "fn evaluate_tree(publisher: BasicPublisher, source: &String) -> String {\n",
  "    let publisher = publisher.clear_false();\n",
  "    let grammar_node = publisher.get_node(Key(0));\n",
  "    evaluate_tree_kernel(&publisher, source, grammar_node)\n",
  "}\n",
  "#[allow(dead_code)]\n",
  "#[allow(clippy::only_used_in_recursion)] // Keeps similarty with other examples despite not actually needing source\n",
  "fn evaluate_tree_kernel(publisher: &BasicPublisher, source: &String, node: &Node) -> String {\n",
  "    let mut results: String = \"\".to_string();\n",
  "    for child_key in node.get_children() {\n",
  "        let child = publisher.get_node(*child_key);\n",
  "        let mut result: String;\n",
  "        match child.rule {\n",
  "            Rules::Grammar => {\n",
  "                result = evaluate_tree_kernel(publisher, source, child);\n",
  "                println!(\"Grammar Result: {result}\");\n",
  "            }\n",
  "            Rules::A => {\n",
  "                result = evaluate_tree_kernel(publisher, source, child);\n",
  "\n",
  "                result += \"a\";\n",
  "            }\n",
  "            Rules::B => {\n",
  "                result = evaluate_tree_kernel(publisher, source, child);\n",
  "                result += \"b\";\n",
  "            }\n",
  "        }\n",
  "        results.push_str(&result);\n",
  "    }\n",
  "    results\n",
  "}\n",
  "\n",
  "#[cfg(test)]\n",
  "mod tests {\n",
  "    use crate::evaluate_tree;\n",
  "    use core::cell::RefCell;\n",
  "    use example_2_parser::*;\n",
  "\n",
  "    #[test]\n",
  "    fn test_1() {\n",
  "        let string = \"ababababa\".to_string();\n",
  "        let src_len = string.len() as u32;\n",
  "        let source = Source::new(&string);\n",
  "        let position: u32 = 0;\n",
  "        let result: (bool, u32);\n",
  "        let context = RefCell::new(BasicContext::new(src_len as usize, RULES_SIZE as usize));\n",
  "        let user_state: RefCell<UserState> = RefCell::new(UserState);\n",
  "        {\n",
  "            let executor = _var_name(&user_state, Rules::Grammar, &context, grammar);\n",
  "            result = executor(Key(0), &source, position);\n",
  "        }\n",
  "        println!(\"Result: {result:?}\");\n",
  "        //context.borrow().print_cache();\n",
  "        //context.borrow().print_publisher();\n",
  "        let publisher = context.into_inner().get_publisher();\n",
  "        publisher.print(Key(0), Some(true));\n",
  "        assert_eq!((result.0, result.1), (true, src_len));\n",
  "        let result = evaluate_tree(publisher, &string);\n",
  "        assert_eq!(result, \"ababababa\");\n",
  "    }\n",
  "\n",
  "    #[test]\n",
  "    fn test_2() {\n",
  "        let string = \"babababababa\".to_string();\n",
  "        let src_len = string.len() as u32;\n",
  "        let source = Source::new(&string);\n",
  "        let position: u32 = 0;\n",
  "        let result: (bool, u32);\n",
  "        let context = RefCell::new(BasicContext::new(src_len as usize, RULES_SIZE as usize));\n",
  "        let user_state: RefCell<UserState> = RefCell::new(UserState);\n",
  "        {\n",
  "            let executor = _var_name(&user_state, Rules::Grammar, &context, grammar);\n",
  "            result = executor(Key(0), &source, position);\n",
  "        }\n",
  "        println!(\"Result: {result:?}\");\n",
  "        //context.borrow().print_cache();\n",
  "        //context.borrow().print_publisher();\n",
  "        let publisher = context.into_inner().get_publisher();\n",
  "        publisher.print(Key(0), Some(true));\n",
  "        assert_eq!((result.0, result.1), (false, 0));\n",
  "    }\n",
  "\n",
  "    #[test]\n",
  "    fn test_3() {\n",
  "        let string = \"bababababab\".to_string();\n",
  "        let src_len = string.len() as u32;\n",
  "        let source = Source::new(&string);\n",
  "        let position: u32 = 0;\n",
  "        let result: (bool, u32);\n",
  "        let context = RefCell::new(BasicContext::new(src_len as usize, RULES_SIZE as usize));\n",
  "        let user_state: RefCell<UserState> = RefCell::new(UserState);\n",
  "        {\n",
  "            let executor = _var_name(&user_state, Rules::Grammar, &context, grammar);\n",
  "            result = executor(Key(0), &source, position);\n",
  "        }\n",
  "        println!(\"Result: {result:?}\");\n",
  "        //context.borrow().print_cache();\n",
  "        //context.borrow().print_publisher();\n",
  "        let publisher = context.into_inner().get_publisher();\n",
  "        publisher.print(Key(0), Some(true));\n",
  "        assert_eq!((result.0, result.1), (false, 0));\n",
  "        // let result = evaluate_tree(publisher, &string);\n",
  "        // assert_eq!(result, 50);\n",
  "    }\n",
  "\n",
  "    #[test]\n",
  "    fn test_4() {\n",
  "        let string = \"aba\".to_string();\n",
  "        let src_len = string.len() as u32;\n",
  "        let source = Source::new(&string);\n",
  "        let position: u32 = 0;\n",
  "        let result: (bool, u32);\n",
  "        let context = RefCell::new(BasicContext::new(src_len as usize, RULES_SIZE as usize));\n",
  "        let user_state: RefCell<UserState> = RefCell::new(UserState);\n",
  "        {\n",
  "            let executor = _var_name(&user_state, Rules::Grammar, &context, grammar);\n",
  "            result = executor(Key(0), &source, position);\n",
  "        }\n",
  "        println!(\"Result: {result:?}\");\n",
  "        //context.borrow().print_cache();\n",
  "        //context.borrow().print_publisher();\n",
  "        let publisher = context.into_inner().get_publisher();\n",
  "        publisher.print(Key(0), Some(true));\n",
  "        assert_eq!((result.0, result.1), (true, src_len));\n",
  "        // let result = evaluate_tree(publisher, &string);\n",
  "        let result = evaluate_tree(publisher, &string);\n",
  "        assert_eq!(result, \"aba\");\n",
  "    }\n",
  "\n",
  "    #[test]\n",
  "    fn test_5() {\n",
  "        let string = \"a\".to_string();\n",
  "        let src_len = string.len() as u32;\n",
  "        let source = Source::new(&string);\n",
  "        let position: u32 = 0;\n",
  "        let result: (bool, u32);\n",
  "        let context = RefCell::new(BasicContext::new(src_len as usize, RULES_SIZE as usize));\n",
  "        let user_state: RefCell<UserState> = RefCell::new(UserState);\n",
  "        {\n",
  "            let executor = _var_name(&user_state, Rules::Grammar, &context, grammar);\n",
  "            result = executor(Key(0), &source, position);\n",
  "        }\n",
  "        println!(\"Result: {result:?}\");\n",
  "        //context.borrow().print_cache();\n",
  "        //context.borrow().print_publisher();\n",
  "        let publisher = context.into_inner().get_publisher();\n",
  "        publisher.print(Key(0), Some(true));\n",
  "        assert_eq!((result.0, result.1), (true, src_len));\n",
  "        // let result = evaluate_tree(publisher, &string);\n",
  "        let result = evaluate_tree(publisher, &string);\n",
  "        assert_eq!(result, \"a\");\n",
  "    }\n",
  "\n",
  "    #[test]\n",
  "    fn test_6() {\n",
  "        let string = \"b\".to_string();\n",
  "        let src_len = string.len() as u32;\n",
  "        let source = Source::new(&string);\n",
  "        let position: u32 = 0;\n",
  "        let result: (bool, u32);\n",
  "        let context = RefCell::new(BasicContext::new(src_len as usize, RULES_SIZE as usize));\n",
  "        let user_state: RefCell<UserState> = RefCell::new(UserState);\n",
  "        {\n",
  "            let executor = _var_name(&user_state, Rules::Grammar, &context, grammar);\n",
  "            result = executor(Key(0), &source, position);\n",
  "        }\n",
  "        println!(\"Result: {result:?}\");\n",
  "        //context.borrow().print_cache();\n",
  "        //context.borrow().print_publisher();\n",
  "        let publisher = context.into_inner().get_publisher();\n",
  "        publisher.print(Key(0), Some(true));\n",
  "        assert_eq!((result.0, result.1), (false, 0));\n",
  "        // let result = evaluate_tree(publisher, &string);\n",
  "    }\n",
  "}\n"]

/-- examples/example_3_basic_maths/src/lib.rs:1-485 -/
def calc3Lib : List String := [
  "mod test_number;\n",
  "use example_3_basic_maths_parser::*;\n",
  "\n",
  "#[allow(dead_code)]\n",
  "fn evaluate_tree(publisher: BasicPublisher, source: &String) -> i64 {\n",
  "    let publisher = publisher.clear_false();\n",
  "    let grammar_node = publisher.get_node(Key(0));\n",
  "    evaluate_tree_kernel(&publisher, source, grammar_node)\n",
  "}\n",
  "#[allow(dead_code)]\n",
  "fn evaluate_binary_node(publisher: &BasicPublisher, source: &String, node: &Node) -> (i64, i64) {\n",
  "    // Eval Nodes with two children.\n",
  "    let children = node.get_children();\n",
  "    debug_assert!(children.len() == 2); // Must have two children exactly.\n",
  "    let lhs = publisher.get_node(children[0]);\n",
  "    let lhs_result = evaluate_tree_kernel(publisher, source, lhs);\n",
  "    let rhs = publisher.get_node(children[1]);\n",
  "    let rhs_result = evaluate_tree_kernel(publisher, source, rhs);\n",
  "    (lhs_result, rhs_result)\n",
  "}\n",
  "#[allow(dead_code)]\n",
  "fn evaluate_number(publisher: &BasicPublisher, source: &str, node: &Node) -> i64 {\n",
  "    debug_assert!(node.rule == Rules::Number);\n",
  "    debug_assert!(\n",
  "        !node.get_children().is_empty(),\n",
  "        \"Must have at least one child, Integer\"\n",
  "    );\n",
  "    let children = node.get_children();\n",
  "    if children.len() > 1 {\n",
  "        panic!(\"We do not currently support Sign/Exponent/Fraction\");\n",
  "    }\n",
  "    let integer_node = publisher.get_node(children[0]);\n",
  "    debug_assert!(integer_node.rule == Rules::Integer);\n",
  "\n",
  "    let integer = integer_node.get_string(source);\n",
  "    println!(\"Integer String: {integer}\");\n",
  "    let integer: i64 = integer.parse().expect(\"Should be valid integer\");\n",
  "    println!(\"Integer i64: {integer}\");\n",
  "    integer\n",
  "}\n",
  "\n",
  "fn evaluate_tree_kernel(publisher: &BasicPublisher, source: &String, node: &Node) -> i64 {\n",
  "    let mut evaluation_result: Option<i64> = None;\n",
  "    for child_key in node.get_children() {\n",
  "        let child = publisher.get_node(*child_key);\n",
  "        let result: i64;\n",
  "        match child.rule {\n",
  "            Rules::Grammar | Rules::Term | Rules::Factor | Rules::Expr | Rules::Parentheses => {\n",
  "                result = evaluate_tree_kernel(publisher, source, child);\n",
  "                println!(\"{:?} Result: {result}\", child.rule);\n",
  "                evaluation_result = Some(result);\n",
  "            }\n",
  "            Rules::Addition => {\n",
  "                let (lhs, rhs) = evaluate_binary_node(publisher, source, child);\n",
  "                println!(\"Addition Result: {lhs} + {rhs} = {}\", lhs + rhs);\n",
  "                evaluation_result = Some(lhs + rhs);\n",
  "            }\n",
  "            Rules::Subtraction => {\n",
  "                let (lhs, rhs) = evaluate_binary_node(publisher, source, child);\n",
  "                evaluation_result = Some(lhs - rhs);\n",
  "                println!(\"Subtraction Result: {lhs} - {rhs} = {}\", lhs - rhs);\n",
  "            }\n",
  "            Rules::Multiplication => {\n",
  "                let (lhs, rhs) = evaluate_binary_node(publisher, source, child);\n",
  "                evaluation_result = Some(lhs * rhs);\n",
  "                println!(\"Multiplication Result: {lhs} * {rhs} = {}\", lhs * rhs);\n",
  "            }\n",
  "            Rules::Division => {\n",
  "                let (lhs, rhs) = evaluate_binary_node(publisher, source, child);\n",
  "                evaluation_result = Some(lhs / rhs); // Div by Zero will fail this is not production grade.\n",
  "                                                     // Could be easily handled by returning Result instead\n",
  "                                                     // And throwing an error instead.\n",
  "                println!(\"Division Result: {lhs} / {rhs} = {}\", lhs / rhs);\n",
  "            }\n",
  "            Rules::Number => {\n",
  "                let integer = evaluate_number(publisher, source, child);\n",
  "                evaluation_result = Some(integer)\n",
  "            }\n",
  "            Rules::Exponent | Rules::Fraction | Rules::Integer | Rules::Sign => {\n",
  "                // Should not be reached\n",
  "                unreachable!(\"These rules can only be accessed via a number which get's handled by number function call!.\")\n",
  "            }\n",
  "        }\n",
  "    }\n",
  "    match evaluation_result {\n",
  "        Some(res) => res,\n",
  "        None => {\n",
  "            panic!(\"Some fatal logical flaw has occurred in the program.\")\n",
  "        }\n",
  "    }\n",
  "}\n",
  "\n",
  "#[cfg(test)]\n",
  "mod tests {\n",
  "    use crate::evaluate_tree;\n",
  "    use core::cell::RefCell;\n",
  "    use example_3_basic_maths_parser::*;\n",
  "    #[test]\n",
  "    fn test_1() {\n",
  "        let string = \"20+10\".to_string();\n",
  "        let src_len = string.len() as u32;\n",
  "        let source = Source::new(&string);\n",
  "        let position: u32 = 0;\n",
  "        let result: (bool, u32);\n",
  "        let context = RefCell::new(BasicContext::new(src_len as usize, RULES_SIZE as usize));\n",
  "        let user_state: RefCell<UserState> = RefCell::new(UserState);\n",
  "        {\n",
  "            let executor = _var_name(&user_state, Rules::Grammar, &context, grammar);\n",
  "            result = executor(Key(0), &source, position);\n",
  "        }\n",
  "        println!(\"Result: {result:?}\");\n",
  "        //context.borrow().print_cache();\n",
  "        //context.borrow().print_publisher();\n",
  "        let publisher = context.into_inner().get_publisher();\n",
  "        publisher.print(Key(0), Some(true));\n",
  "        assert_eq!((result.0, result.1), (true, src_len));\n",
  "        let result = evaluate_tree(publisher, &string);\n",
  "        assert_eq!(result, 30);\n",
  "    }\n",
  "\n",
  "    #[test]\n",
  "    fn test_2() {\n",
  "        let string = \"20-10\".to_string();\n",
  "        let src_len = string.len() as u32;\n",
  "        let source = Source::new(&string);\n",
  "        let position: u32 = 0;\n",
  "        let result: (bool, u32);\n",
  "        let context = RefCell::new(BasicContext::new(src_len as usize, RULES_SIZE as usize));\n",
  "        let user_state: RefCell<UserState> = RefCell::new(UserState);\n",
  "        {\n",
  "            let executor = _var_name(&user_state, Rules::Grammar, &context, grammar);\n",
  "            result = executor(Key(0), &source, position);\n",
  "        }\n",
  "        println!(\"Result: {result:?}\");\n",
  "        //context.borrow().print_cache();\n",
  "        //context.borrow().print_publisher();\n",
  "        let publisher = context.into_inner().get_publisher();\n",
  "        publisher.print(Key(0), Some(true));\n",
  "        assert_eq!((result.0, result.1), (true, src_len));\n",
  "        let result = evaluate_tree(publisher, &string);\n",
  "        assert_eq!(result, 10);\n",
  "    }\n",
  "\n",
  "    #[test]\n",
  "    fn test_3() {\n",
  "        let string = \"20+10+20\".to_string();\n",
  "        let src_len = string.len() as u32;\n",
  "        let source = Source::new(&string);\n",
  "        let position: u32 = 0;\n",
  "        let result: (bool, u32);\n",
  "        let context = RefCell::new(BasicContext::new(src_len as usize, RULES_SIZE as usize));\n",
  "        let user_state: RefCell<UserState> = RefCell::new(UserState);\n",
  "        {\n",
  "            let executor = _var_name(&user_state, Rules::Grammar, &context, grammar);\n",
  "            result = executor(Key(0), &source, position);\n",
  "        }\n",
  "        println!(\"Result: {result:?}\");\n",
  "        //context.borrow().print_cache();\n",
  "        //context.borrow().print_publisher();\n",
  "        let publisher = context.into_inner().get_publisher();\n",
  "        publisher.print(Key(0), Some(true));\n",
  "        assert_eq!((result.0, result.1), (true, src_len));\n",
  "        let result = evaluate_tree(publisher, &string);\n",
  "        assert_eq!(result, 50);\n",
  "    }\n",
  "\n",
  "    #[test]\n",
  "    fn test_4() {\n",
  "        let string = \"7+5-3\".to_string();\n",
  "        let src_len = string.len() as u32;\n",
  "        let source = Source::new(&string);\n",
  "        let position: u32 = 0;\n",
  "        let result: (bool, u32);\n",
  "        let context = RefCell::new(BasicContext::new(src_len as usize, RULES_SIZE as usize));\n",
  "        let user_state: RefCell<UserState> = RefCell::new(UserState);\n",
  "        {\n",
  "            let executor = _var_name(&user_state, Rules::Grammar, &context, grammar);\n",
  "            result = executor(Key(0), &source, position);\n",
  "        }\n",
  "        println!(\"Result: {result:?}\");\n",
  "        //context.borrow().print_cache();\n",
  "        //context.borrow().print_publisher();\n",
  "        let publisher = context.into_inner().get_publisher();\n",
  "        publisher.print(Key(0), Some(true));\n",
  "        assert_eq!((result.0, result.1), (true, src_len));\n",
  "        let result = evaluate_tree(publisher, &string);\n",
  "        assert_eq!(result, 9);\n",
  "    }\n",
  "\n",
  "    #[test]\n",
  "    fn test_5() {\n",
  "        let string = \"7/5+3\".to_string();\n",
  "        let src_len = string.len() as u32;\n",
  "        let source = Source::new(&string);\n",
  "        let position: u32 = 0;\n",
  "        let result: (bool, u32);\n",
  "        let context = RefCell::new(BasicContext::new(src_len as usize, RULES_SIZE as usize));\n",
  "        let user_state: RefCell<UserState> = RefCell::new(UserState);\n",
  "        {\n",
  "            let executor = _var_name(&user_state, Rules::Grammar, &context, grammar);\n",
  "            result = executor(Key(0), &source, position);\n",
  "        }\n",
  "        println!(\"Result: {result:?}\");\n",
  "        //context.borrow().print_cache();\n",
  "        //context.borrow().print_publisher();\n",
  "        let publisher = context.into_inner().get_publisher();\n",
  "        publisher.print(Key(0), Some(true));\n",
  "        assert_eq!((result.0, result.1), (true, src_len));\n",
  "        let result = evaluate_tree(publisher, &string);\n",
  "        assert_eq!(result, 4);\n",
  "    }\n",
  "\n",
  "    #[test]\n",
  "    fn test_6() {\n",
  "        let string = \"7+5/3\".to_string();\n",
  "        let src_len = string.len() as u32;\n",
  "        let source = Source::new(&string);\n",
  "        let position: u32 = 0;\n",
  "        let result: (bool, u32);\n",
  "        let context = RefCell::new(BasicContext::new(src_len as usize, RULES_SIZE as usize));\n",
  "        let user_state: RefCell<UserState> = RefCell::new(UserState);\n",
  "        {\n",
  "            let executor = _var_name(&user_state, Rules::Grammar, &context, grammar);\n",
  "            result = executor(Key(0), &source, position);\n",
  "        }\n",
  "        println!(\"Result: {result:?}\");\n",
  "        //context.borrow().print_cache();\n",
  "        //context.borrow().print_publisher();\n",
  "        let publisher = context.into_inner().get_publisher();\n",
  "        publisher.print(Key(0), Some(true));\n",
  "        assert_eq!((result.0, result.1), (true, src_len));\n",
  "        let result = evaluate_tree(publisher, &string);\n",
  "        assert_eq!(result, 8);\n",
  "    }\n",
  "\n",
  "    #[test]\n",
  "    fn test_7() {\n",
  "        let string = \"7/5-3\".to_string();\n",
  "        let src_len = string.len() as u32;\n",
  "        let source = Source::new(&string);\n",
  "        let position: u32 = 0;\n",
  "        let result: (bool, u32);\n",
  "        let context = RefCell::new(BasicContext::new(src_len as usize, RULES_SIZE as usize));\n",
  "        let user_state: RefCell<UserState> = RefCell::new(UserState);\n",
  "        {\n",
  "            let executor = _var_name(&user_state, Rules::Grammar, &context, grammar);\n",
  "            result = executor(Key(0), &source, position);\n",
  "        }\n",
  "        println!(\"Result: {result:?}\");\n",
  "        //context.borrow().print_cache();\n",
  "        //context.borrow().print_publisher();\n",
  "        let publisher = context.into_inner().get_publisher();\n",
  "        publisher.print(Key(0), Some(true));\n",
  "        assert_eq!((result.0, result.1), (true, src_len));\n",
  "        let result = evaluate_tree(publisher, &string);\n",
  "        assert_eq!(result, -2);\n",
  "    }\n",
  "\n",
  "    #[test]\n",
  "    fn test_8() {\n",
  "        let string = \"7-5/3\".to_string();\n",
  "        let src_len = string.len() as u32;\n",
  "        let source = Source::new(&string);\n",
  "        let position: u32 = 0;\n",
  "        let result: (bool, u32);\n",
  "        let context = RefCell::new(BasicContext::new(src_len as usize, RULES_SIZE as usize));\n",
  "        let user_state: RefCell<UserState> = RefCell::new(UserState);\n",
  "        {\n",
  "            let executor = _var_name(&user_state, Rules::Grammar, &context, grammar);\n",
  "            result = executor(Key(0), &source, position);\n",
  "        }\n",
  "        println!(\"Result: {result:?}\");\n",
  "        //context.borrow().print_cache();\n",
  "        //context.borrow().print_publisher();\n",
  "        let publisher = context.into_inner().get_publisher();\n",
  "        publisher.print(Key(0), Some(true));\n",
  "        assert_eq!((result.0, result.1), (true, src_len));\n",
  "        let result = evaluate_tree(publisher, &string);\n",
  "        assert_eq!(result, 6);\n",
  "    }\n",
  "\n",
  "    #[test]\n",
  "    fn test_9() {\n",
  "        let string = \"20+10+20+40\".to_string();\n",
  "        let src_len = string.len() as u32;\n",
  "        let source = Source::new(&string);\n",
  "        let position: u32 = 0;\n",
  "        let result: (bool, u32);\n",
  "        let context = RefCell::new(BasicContext::new(src_len as usize, RULES_SIZE as usize));\n",
  "        let user_state: RefCell<UserState> = RefCell::new(UserState);\n",
  "        {\n",
  "            let executor = _var_name(&user_state, Rules::Grammar, &context, grammar);\n",
  "            result = executor(Key(0), &source, position);\n",
  "        }\n",
  "        println!(\"Result: {result:?}\");\n",
  "        //context.borrow().print_cache();\n",
  "        //context.borrow().print_publisher();\n",
  "        let publisher = context.into_inner().get_publisher();\n",
  "        publisher.print(Key(0), Some(true));\n",
  "        assert_eq!((result.0, result.1), (true, src_len));\n",
  "        let result = evaluate_tree(publisher, &string);\n",
  "        assert_eq!(result, 90);\n",
  "    }\n",
  "\n",
  "    #[test]\n",
  "    fn test_10() {\n",
  "        let string = \"7+5-3-60\".to_string();\n",
  "        let src_len = string.len() as u32;\n",
  "        let source = Source::new(&string);\n",
  "        let position: u32 = 0;\n",
  "        let result: (bool, u32);\n",
  "        let context = RefCell::new(BasicContext::new(src_len as usize, RULES_SIZE as usize));\n",
  "        let user_state: RefCell<UserState> = RefCell::new(UserState);\n",
  "        {\n",
  "            let executor = _var_name(&user_state, Rules::Grammar, &context, grammar);\n",
  "            result = executor(Key(0), &source, position);\n",
  "        }\n",
  "        println!(\"Result: {result:?}\");\n",
  "        //context.borrow().print_cache();\n",
  "        //context.borrow().print_publisher();\n",
  "        let publisher = context.into_inner().get_publisher();\n",
  "        publisher.print(Key(0), Some(true));\n",
  "        assert_eq!((result.0, result.1), (true, src_len));\n",
  "        let result = evaluate_tree(publisher, &string);\n",
  "        assert_eq!(result, -51);\n",
  "    }\n",
  "\n",
  "    #[test]\n",
  "    fn test_11() {\n",
  "        let string = \"7/5+3-20\".to_string();\n",
  "        let src_len = string.len() as u32;\n",
  "        let source = Source::new(&string);\n",
  "        let position: u32 = 0;\n",
  "        let result: (bool, u32);\n",
  "        let context = RefCell::new(BasicContext::new(src_len as usize, RULES_SIZE as usize));\n",
  "        let user_state: RefCell<UserState> = RefCell::new(UserState);\n",
  "        {\n",
  "            let executor = _var_name(&user_state, Rules::Grammar, &context, grammar);\n",
  "            result = executor(Key(0), &source, position);\n",
  "        }\n",
  "        println!(\"Result: {result:?}\");\n",
  "        //context.borrow().print_cache();\n",
  "        //context.borrow().print_publisher();\n",
  "        let publisher = context.into_inner().get_publisher();\n",
  "        publisher.print(Key(0), Some(true));\n",
  "        assert_eq!((result.0, result.1), (true, src_len));\n",
  "        let result = evaluate_tree(publisher, &string);\n",
  "        assert_eq!(result, -16);\n",
  "    }\n",
  "\n",
  "    #[test]\n",
  "    fn test_12() {\n",
  "        let string = \"7+5/3+40\".to_string();\n",
  "        let src_len = string.len() as u32;\n",
  "        let source = Source::new(&string);\n",
  "        let position: u32 = 0;\n",
  "        let result: (bool, u32);\n",
  "        let context = RefCell::new(BasicContext::new(src_len as usize, RULES_SIZE as usize));\n",
  "        let user_state: RefCell<UserState> = RefCell::new(UserState);\n",
  "        {\n",
  "            let executor = _var_name(&user_state, Rules::Grammar, &context, grammar);\n",
  "            result = executor(Key(0), &source, position);\n",
  "        }\n",
  "        println!(\"Result: {result:?}\");\n",
  "        //context.borrow().print_cache();\n",
  "        //context.borrow().print_publisher();\n",
  "        let publisher = context.into_inner().get_publisher();\n",
  "        publisher.print(Key(0), Some(true));\n",
  "        assert_eq!((result.0, result.1), (true, src_len));\n",
  "        let result = evaluate_tree(publisher, &string);\n",
  "        assert_eq!(result, 48);\n",
  "    }\n",
  "\n",
  "    #[test]\n",
  "    fn test_13() {\n",
  "        let string = \"7/5-3+15\".to_string();\n",
  "        let src_len = string.len() as u32;\n",
  "        let source = Source::new(&string);\n",
  "        let position: u32 = 0;\n",
  "        let result: (bool, u32);\n",
  "        let context = RefCell::new(BasicContext::new(src_len as usize, RULES_SIZE as usize));\n",
  "        let user_state: RefCell<UserState> = RefCell::new(UserState);\n",
  "        {\n",
  "            let executor = _var_name(&user_state, Rules::Grammar, &context, grammar);\n",
  "            result = executor(Key(0), &source, position);\n",
  "        }\n",
  "        println!(\"Result: {result:?}\");\n",
  "        //context.borrow().print_cache();\n",
  "        //context.borrow().print_publisher();\n",
  "        let publisher = context.into_inner().get_publisher();\n",
  "        publisher.print(Key(0), Some(true));\n",
  "        assert_eq!((result.0, result.1), (true, src_len));\n",
  "        let result = evaluate_tree(publisher, &string);\n",
  "        assert_eq!(result, 13);\n",
  "    }\n",
  "\n",
  "    #[test]\n",
  "    fn test_14() {\n",
  "        let string = \"7-5/3*4\".to_string();\n",
  "        let src_len = string.len() as u32;\n",
  "        let source = Source::new(&string);\n",
  "        let position: u32 = 0;\n",
  "        let result: (bool, u32);\n",
  "        let context = RefCell::new(BasicContext::new(src_len as usize, RULES_SIZE as usize));\n",
  "        let user_state: RefCell<UserState> = RefCell::new(UserState);\n",
  "        {\n",
  "            let executor = _var_name(&user_state, Rules::Grammar, &context, grammar);\n",
  "            result = executor(Key(0), &source, position);\n",
  "        }\n",
  "        println!(\"Result: {result:?}\");\n",
  "        //context.borrow().print_cache();\n",
  "        //context.borrow().print_publisher();\n",
  "        let publisher = context.into_inner().get_publisher();\n",
  "        publisher.print(Key(0), Some(true));\n",
  "        assert_eq!((result.0, result.1), (true, src_len));\n",
  "        let result = evaluate_tree(publisher, &string);\n",
  "        assert_eq!(result, 3);\n",
  "    }\n",
  "    #[test]\n",
  "    fn test_15() {\n",
  "        let string = \"(7-5)/(3*4)\".to_string();\n",
  "        let src_len = string.len() as u32;\n",
  "        let source = Source::new(&string);\n",
  "        let position: u32 = 0;\n",
  "        let result: (bool, u32);\n",
  "        let context = RefCell::new(BasicContext::new(src_len as usize, RULES_SIZE as usize));\n",
  "        let user_state: RefCell<UserState> = RefCell::new(UserState);\n",
  "        {\n",
  "            let executor = _var_name(&user_state, Rules::Grammar, &context, grammar);\n",
  "            result = executor(Key(0), &source, position);\n",
  "        }\n",
  "        println!(\"Result: {result:?}\");\n",
  "        //context.borrow().print_cache();\n",
  "        //context.borrow().print_publisher();\n",
  "        let publisher = context.into_inner().get_publisher();\n",
  "        publisher.print(Key(0), Some(true));\n",
  "        assert_eq!((result.0, result.1), (true, src_len));\n",
  "        let result = evaluate_tree(publisher, &string);\n",
  "        assert_eq!(result, 0);\n",
  "    }\n",
  "    #[test]\n",
  "    fn test_16() {\n",
  "        let string = \"(7-5)/(3*4)*20/2+5-19\".to_string();\n",
  "        let src_len = string.len() as u32;\n",
  "        let source = Source::new(&string);\n",
  "        let position: u32 = 0;\n",
  "        let result: (bool, u32);\n",
  "        let context = RefCell::new(BasicContext::new(src_len as usize, RULES_SIZE as usize));\n",
  "        let user_state: RefCell<UserState> = RefCell::new(UserState);\n",
  "        {\n",
  "            let executor = _var_name(&user_state, Rules::Grammar, &context, grammar);\n",
  "            result = executor(Key(0), &source, position);\n",
  "        }\n",
  "        println!(\"Result: {result:?}\");\n",
  "        //context.borrow().print_cache();\n",
  "        //context.borrow().print_publisher();\n",
  "        let publisher = context.into_inner().get_publisher();\n",
  "        publisher.print(Key(0), Some(true));\n",
  "        assert_eq!((result.0, result.1), (true, src_len));\n",
  "        let result = evaluate_tree(publisher, &string);\n",
  "        assert_eq!(result, -14);\n",
  "    }\n",
  "    #[test]\n",
  "    fn test_17() {\n",
  "        let string = \"1*2/3*7/9\".to_string();\n",
  "        let src_len = string.len() as u32;\n",
  "        let source = Source::new(&string);\n",
  "        let position: u32 = 0;\n",
  "        let result: (bool, u32);\n",
  "        let context = RefCell::new(BasicContext::new(src_len as usize, RULES_SIZE as usize));\n",
  "        let user_state: RefCell<UserState> = RefCell::new(UserState);\n",
  "        {\n",
  "            let executor = _var_name(&user_state, Rules::Grammar, &context, grammar);\n",
  "            result = executor(Key(0), &source, position);\n",
  "        }\n",
  "        println!(\"Result: {result:?}\");\n",
  "        //context.borrow().print_cache();\n",
  "        //context.borrow().print_publisher();\n",
  "        let publisher = context.into_inner().get_publisher();\n",
  "        publisher.print(Key(0), Some(true));\n",
  "        assert_eq!((result.0, result.1), (true, src_len));\n",
  "        let result = evaluate_tree(publisher, &string);\n",
  "        assert_eq!(result, 0);\n",
  "    }\n",
  "}\n"]

/-- examples/example_4_full_maths/src/lib.rs:1-629 -/
def calc4Lib : List String := [
  "mod test_number;\n",
  "use example_4_full_maths_parser::*;\n",
  "#[allow(dead_code)]\n",
  "fn evaluate_tree(publisher: BasicPublisher, source: &String) -> i64 {\n",
  "    let publisher = publisher.clear_false();\n",
  "    let grammar_node = publisher.get_node(Key(0));\n",
  "    evaluate_tree_kernel(&publisher, source, grammar_node)\n",
  "}\n",
  "#[allow(dead_code)]\n",
  "fn evaluate_binary_node(publisher: &BasicPublisher, source: &String, node: &Node) -> (i64, i64) {\n",
  "    // Eval Nodes with two children.\n",
  "    let children = node.get_children();\n",
  "    debug_assert!(children.len() == 2); // Must have two children exactly.\n",
  "    let lhs = publisher.get_node(children[0]);\n",
  "    let lhs_result = evaluate_tree_kernel(publisher, source, lhs);\n",
  "    let rhs = publisher.get_node(children[1]);\n",
  "    let rhs_result = evaluate_tree_kernel(publisher, source, rhs);\n",
  "    (lhs_result, rhs_result)\n",
  "}\n",
  "#[allow(dead_code)]\n",
  "fn evaluate_number(publisher: &BasicPublisher, source: &str, node: &Node) -> i64 {\n",
  "    debug_assert!(node.rule == Rules::Number);\n",
  "    debug_assert!(\n",
  "        !node.get_children().is_empty(),\n",
  "        \"Must have at least one child, Integer\"\n",
  "    );\n",
  "    let children = node.get_children();\n",
  "    if children.len() > 1 {\n",
  "        panic!(\"We do not currently support Sign/Exponent/Fraction\");\n",
  "    }\n",
  "    let integer_node = publisher.get_node(children[0]);\n",
  "    debug_assert!(integer_node.rule == Rules::Integer);\n",
  "\n",
  "    let integer = integer_node.get_string(source);\n",
  "    println!(\"Integer String: {integer}\");\n",
  "    let integer: i64 = integer.parse().expect(\"Should be valid integer\");\n",
  "    println!(\"Integer i64: {integer}\");\n",
  "    integer\n",
  "}\n",
  "#[allow(dead_code)]\n",
  "fn evaluate_tree_kernel(publisher: &BasicPublisher, source: &String, node: &Node) -> i64 {\n",
  "    let mut evaluation_result: Option<i64> = None;\n",
  "    for child_key in node.get_children() {\n",
  "        let child = publisher.get_node(*child_key);\n",
  "        let result: i64;\n",
  "        match child.rule {\n",
  "            Rules::Grammar\n",
  "            | Rules::Parentheses\n",
  "            | Rules::Term\n",
  "            | Rules::Factor\n",
  "            | Rules::Expr\n",
  "            | Rules::Power_expr => {\n",
  "                result = evaluate_tree_kernel(publisher, source, child);\n",
  "                println!(\"{:?} Result: {result}\", child.rule);\n",
  "                evaluation_result = Some(result);\n",
  "            }\n",
  "            Rules::Power => {\n",
  "                let (lhs, rhs) = evaluate_binary_node(publisher, source, child);\n",
  "                let res = lhs.pow(rhs as u32);\n",
  "                println!(\"{lhs}, {rhs}, {res:?}\");\n",
  "                println!(\"Power Result: {lhs} ^ {rhs} = {res:?}\");\n",
  "                evaluation_result = Some(res);\n",
  "            }\n",
  "            Rules::Addition => {\n",
  "                let (lhs, rhs) = evaluate_binary_node(publisher, source, child);\n",
  "                println!(\"Addition Result: {lhs} + {rhs} = {}\", lhs + rhs);\n",
  "                evaluation_result = Some(lhs + rhs);\n",
  "            }\n",
  "            Rules::Subtraction => {\n",
  "                let (lhs, rhs) = evaluate_binary_node(publisher, source, child);\n",
  "                evaluation_result = Some(lhs - rhs);\n",
  "                println!(\"Subtraction Result: {lhs} - {rhs} = {}\", lhs - rhs);\n",
  "            }\n",
  "            Rules::Multiplication => {\n",
  "                let (lhs, rhs) = evaluate_binary_node(publisher, source, child);\n",
  "                evaluation_result = Some(lhs * rhs);\n",
  "                println!(\"Multiplication Result: {lhs} * {rhs} = {}\", lhs * rhs);\n",
  "            }\n",
  "            Rules::Division => {\n",
  "                let (lhs, rhs) = evaluate_binary_node(publisher, source, child);\n",
  "                evaluation_result = Some(lhs / rhs); // Div by Zero will fail this is not production grade.\n",
  "                                                     // Could be easily handled by returning Result instead\n",
  "                                                     // And throwing an error instead.\n",
  "                println!(\"Division Result: {lhs} / {rhs} = {}\", lhs / rhs);\n",
  "            }\n",
  "            Rules::Number => {\n",
  "                let integer = evaluate_number(publisher, source, child);\n",
  "                evaluation_result = Some(integer)\n",
  "            }\n",
  "            Rules::Exponent | Rules::Fraction | Rules::Integer | Rules::Sign => {\n",
  "                // Should not be reached\n",
  "                unreachable!(\"These rules can only be accessed via a number which get's handled by number function call!.\")\n",
  "            }\n",
  "        }\n",
  "    }\n",
  "    match evaluation_result {\n",
  "        Some(res) => res,\n",
  "        None => {\n",
  "            panic!(\"Some fatal logical flaw has occurred in the program.\")\n",
  "        }\n",
  "    }\n",
  "}\n",
  "\n",
  "#[cfg(test)]\n",
  "mod tests {\n",
  "    use crate::evaluate_tree;\n",
  "    use core::cell::RefCell;\n",
  "    use example_4_full_maths_parser::*;\n",
  "    #[test]\n",
  "    fn test_1() {\n",
  "        let string = \"20+10\".to_string();\n",
  "        let src_len = string.len() as u32;\n",
  "        let source = Source::new(&string);\n",
  "        let position: u32 = 0;\n",
  "        let result: (bool, u32);\n",
  "        let context = RefCell::new(BasicContext::new(src_len as usize, RULES_SIZE as usize));\n",
  "        let user_state: RefCell<UserState> = RefCell::new(UserState);\n",
  "        {\n",
  "            let executor = _var_name(&user_state, Rules::Grammar, &context, grammar);\n",
  "            result = executor(Key(0), &source, position);\n",
  "        }\n",
  "        println!(\"Result: {result:?}\");\n",
  "        //context.borrow().print_cache();\n",
  "        //context.borrow().print_publisher();\n",
  "        let publisher = context.into_inner().get_publisher();\n",
  "        publisher.print(Key(0), Some(true));\n",
  "        assert_eq!((result.0, result.1), (true, src_len));\n",
  "        let result = evaluate_tree(publisher, &string);\n",
  "        assert_eq!(result, 30);\n",
  "    }\n",
  "\n",
  "    #[test]\n",
  "    fn test_2() {\n",
  "        let string = \"20-10\".to_string();\n",
  "        let src_len = string.len() as u32;\n",
  "        let source = Source::new(&string);\n",
  "        let position: u32 = 0;\n",
  "        let result: (bool, u32);\n",
  "        let context = RefCell::new(BasicContext::new(src_len as usize, RULES_SIZE as usize));\n",
  "        let user_state: RefCell<UserState> = RefCell::new(UserState);\n",
  "        {\n",
  "            let executor = _var_name(&user_state, Rules::Grammar, &context, grammar);\n",
  "            result = executor(Key(0), &source, position);\n",
  "        }\n",
  "        println!(\"Result: {result:?}\");\n",
  "        //context.borrow().print_cache();\n",
  "        //context.borrow().print_publisher();\n",
  "        let publisher = context.into_inner().get_publisher();\n",
  "        publisher.print(Key(0), Some(true));\n",
  "        assert_eq!((result.0, result.1), (true, src_len));\n",
  "        let result = evaluate_tree(publisher, &string);\n",
  "        assert_eq!(result, 10);\n",
  "    }\n",
  "\n",
  "    #[test]\n",
  "    fn test_3() {\n",
  "        let string = \"20+10+20\".to_string();\n",
  "        let src_len = string.len() as u32;\n",
  "        let source = Source::new(&string);\n",
  "        let position: u32 = 0;\n",
  "        let result: (bool, u32);\n",
  "        let context = RefCell::new(BasicContext::new(src_len as usize, RULES_SIZE as usize));\n",
  "        let user_state: RefCell<UserState> = RefCell::new(UserState);\n",
  "        {\n",
  "            let executor = _var_name(&user_state, Rules::Grammar, &context, grammar);\n",
  "            result = executor(Key(0), &source, position);\n",
  "        }\n",
  "        println!(\"Result: {result:?}\");\n",
  "        //context.borrow().print_cache();\n",
  "        //context.borrow().print_publisher();\n",
  "        let publisher = context.into_inner().get_publisher();\n",
  "        publisher.print(Key(0), Some(true));\n",
  "        assert_eq!((result.0, result.1), (true, src_len));\n",
  "        let result = evaluate_tree(publisher, &string);\n",
  "        assert_eq!(result, 50);\n",
  "    }\n",
  "\n",
  "    #[test]\n",
  "    fn test_4() {\n",
  "        let string = \"7+5-3\".to_string();\n",
  "        let src_len = string.len() as u32;\n",
  "        let source = Source::new(&string);\n",
  "        let position: u32 = 0;\n",
  "        let result: (bool, u32);\n",
  "        let context = RefCell::new(BasicContext::new(src_len as usize, RULES_SIZE as usize));\n",
  "        let user_state: RefCell<UserState> = RefCell::new(UserState);\n",
  "        {\n",
  "            let executor = _var_name(&user_state, Rules::Grammar, &context, grammar);\n",
  "            result = executor(Key(0), &source, position);\n",
  "        }\n",
  "        println!(\"Result: {result:?}\");\n",
  "        //context.borrow().print_cache();\n",
  "        //context.borrow().print_publisher();\n",
  "        let publisher = context.into_inner().get_publisher();\n",
  "        publisher.print(Key(0), Some(true));\n",
  "        assert_eq!((result.0, result.1), (true, src_len));\n",
  "        let result = evaluate_tree(publisher, &string);\n",
  "        assert_eq!(result, 9);\n",
  "    }\n",
  "\n",
  "    #[test]\n",
  "    fn test_5() {\n",
  "        let string = \"7/5+3\".to_string();\n",
  "        let src_len = string.len() as u32;\n",
  "        let source = Source::new(&string);\n",
  "        let position: u32 = 0;\n",
  "        let result: (bool, u32);\n",
  "        let context = RefCell::new(BasicContext::new(src_len as usize, RULES_SIZE as usize));\n",
  "        let user_state: RefCell<UserState> = RefCell::new(UserState);\n",
  "        {\n",
  "            let executor = _var_name(&user_state, Rules::Grammar, &context, grammar);\n",
  "            result = executor(Key(0), &source, position);\n",
  "        }\n",
  "        println!(\"Result: {result:?}\");\n",
  "        //context.borrow().print_cache();\n",
  "        //context.borrow().print_publisher();\n",
  "        let publisher = context.into_inner().get_publisher();\n",
  "        publisher.print(Key(0), Some(true));\n",
  "        assert_eq!((result.0, result.1), (true, src_len));\n",
  "        let result = evaluate_tree(publisher, &string);\n",
  "        assert_eq!(result, 4);\n",
  "    }\n",
  "\n",
  "    #[test]\n",
  "    fn test_6() {\n",
  "        let string = \"7+5/3\".to_string();\n",
  "        let src_len = string.len() as u32;\n",
  "        let source = Source::new(&string);\n",
  "        let position: u32 = 0;\n",
  "        let result: (bool, u32);\n",
  "        let context = RefCell::new(BasicContext::new(src_len as usize, RULES_SIZE as usize));\n",
  "        let user_state: RefCell<UserState> = RefCell::new(UserState);\n",
  "        {\n",
  "            let executor = _var_name(&user_state, Rules::Grammar, &context, grammar);\n",
  "            result = executor(Key(0), &source, position);\n",
  "        }\n",
  "        println!(\"Result: {result:?}\");\n",
  "        //context.borrow().print_cache();\n",
  "        //context.borrow().print_publisher();\n",
  "        let publisher = context.into_inner().get_publisher();\n",
  "        publisher.print(Key(0), Some(true));\n",
  "        assert_eq!((result.0, result.1), (true, src_len));\n",
  "        let result = evaluate_tree(publisher, &string);\n",
  "        assert_eq!(result, 8);\n",
  "    }\n",
  "\n",
  "    #[test]\n",
  "    fn test_7() {\n",
  "        let string = \"7/5-3\".to_string();\n",
  "        let src_len = string.len() as u32;\n",
  "        let source = Source::new(&string);\n",
  "        let position: u32 = 0;\n",
  "        let result: (bool, u32);\n",
  "        let context = RefCell::new(BasicContext::new(src_len as usize, RULES_SIZE as usize));\n",
  "        let user_state: RefCell<UserState> = RefCell::new(UserState);\n",
  "        {\n",
  "            let executor = _var_name(&user_state, Rules::Grammar, &context, grammar);\n",
  "            result = executor(Key(0), &source, position);\n",
  "        }\n",
  "        println!(\"Result: {result:?}\");\n",
  "        //context.borrow().print_cache();\n",
  "        //context.borrow().print_publisher();\n",
  "        let publisher = context.into_inner().get_publisher();\n",
  "        publisher.print(Key(0), Some(true));\n",
  "        assert_eq!((result.0, result.1), (true, src_len));\n",
  "        let result = evaluate_tree(publisher, &string);\n",
  "        assert_eq!(result, -2);\n",
  "    }\n",
  "\n",
  "    #[test]\n",
  "    fn test_8() {\n",
  "        let string = \"7-5/3\".to_string();\n",
  "        let src_len = string.len() as u32;\n",
  "        let source = Source::new(&string);\n",
  "        let position: u32 = 0;\n",
  "        let result: (bool, u32);\n",
  "        let context = RefCell::new(BasicContext::new(src_len as usize, RULES_SIZE as usize));\n",
  "        let user_state: RefCell<UserState> = RefCell::new(UserState);\n",
  "        {\n",
  "            let executor = _var_name(&user_state, Rules::Grammar, &context, grammar);\n",
  "            result = executor(Key(0), &source, position);\n",
  "        }\n",
  "        println!(\"Result: {result:?}\");\n",
  "        //context.borrow().print_cache();\n",
  "        //context.borrow().print_publisher();\n",
  "        let publisher = context.into_inner().get_publisher();\n",
  "        publisher.print(Key(0), Some(true));\n",
  "        assert_eq!((result.0, result.1), (true, src_len));\n",
  "        let result = evaluate_tree(publisher, &string);\n",
  "        assert_eq!(result, 6);\n",
  "    }\n",
  "\n",
  "    #[test]\n",
  "    fn test_9() {\n",
  "        let string = \"20+10+20+40\".to_string();\n",
  "        let src_len = string.len() as u32;\n",
  "        let source = Source::new(&string);\n",
  "        let position: u32 = 0;\n",
  "        let result: (bool, u32);\n",
  "        let context = RefCell::new(BasicContext::new(src_len as usize, RULES_SIZE as usize));\n",
  "        let user_state: RefCell<UserState> = RefCell::new(UserState);\n",
  "        {\n",
  "            let executor = _var_name(&user_state, Rules::Grammar, &context, grammar);\n",
  "            result = executor(Key(0), &source, position);\n",
  "        }\n",
  "        println!(\"Result: {result:?}\");\n",
  "        //context.borrow().print_cache();\n",
  "        //context.borrow().print_publisher();\n",
  "        let publisher = context.into_inner().get_publisher();\n",
  "        publisher.print(Key(0), Some(true));\n",
  "        assert_eq!((result.0, result.1), (true, src_len));\n",
  "        let result = evaluate_tree(publisher, &string);\n",
  "        assert_eq!(result, 90);\n",
  "    }\n",
  "\n",
  "    #[test]\n",
  "    fn test_10() {\n",
  "        let string = \"7+5-3-60\".to_string();\n",
  "        let src_len = string.len() as u32;\n",
  "        let source = Source::new(&string);\n",
  "        let position: u32 = 0;\n",
  "        let result: (bool, u32);\n",
  "        let context = RefCell::new(BasicContext::new(src_len as usize, RULES_SIZE as usize));\n",
  "        let user_state: RefCell<UserState> = RefCell::new(UserState);\n",
  "        {\n",
  "            let executor = _var_name(&user_state, Rules::Grammar, &context, grammar);\n",
  "            result = executor(Key(0), &source, position);\n",
  "        }\n",
  "        println!(\"Result: {result:?}\");\n",
  "        //context.borrow().print_cache();\n",
  "        //context.borrow().print_publisher();\n",
  "        let publisher = context.into_inner().get_publisher();\n",
  "        publisher.print(Key(0), Some(true));\n",
  "        assert_eq!((result.0, result.1), (true, src_len));\n",
  "        let result = evaluate_tree(publisher, &string);\n",
  "        assert_eq!(result, -51);\n",
  "    }\n",
  "\n",
  "    #[test]\n",
  "    fn test_11() {\n",
  "        let string = \"7/5+3-20\".to_string();\n",
  "        let src_len = string.len() as u32;\n",
  "        let source = Source::new(&string);\n",
  "        let position: u32 = 0;\n",
  "        let result: (bool, u32);\n",
  "        let context = RefCell::new(BasicContext::new(src_len as usize, RULES_SIZE as usize));\n",
  "        let user_state: RefCell<UserState> = RefCell::new(UserState);\n",
  "        {\n",
  "            let executor = _var_name(&user_state, Rules::Grammar, &context, grammar);\n",
  "            result = executor(Key(0), &source, position);\n",
  "        }\n",
  "        println!(\"Result: {result:?}\");\n",
  "        //context.borrow().print_cache();\n",
  "        //context.borrow().print_publisher();\n",
  "        let publisher = context.into_inner().get_publisher();\n",
  "        publisher.print(Key(0), Some(true));\n",
  "        assert_eq!((result.0, result.1), (true, src_len));\n",
  "        let result = evaluate_tree(publisher, &string);\n",
  "        assert_eq!(result, -16);\n",
  "    }\n",
  "\n",
  "    #[test]\n",
  "    fn test_12() {\n",
  "        let string = \"7+5/3+40\".to_string();\n",
  "        let src_len = string.len() as u32;\n",
  "        let source = Source::new(&string);\n",
  "        let position: u32 = 0;\n",
  "        let result: (bool, u32);\n",
  "        let context = RefCell::new(BasicContext::new(src_len as usize, RULES_SIZE as usize));\n",
  "        let user_state: RefCell<UserState> = RefCell::new(UserState);\n",
  "        {\n",
  "            let executor = _var_name(&user_state, Rules::Grammar, &context, grammar);\n",
  "            result = executor(Key(0), &source, position);\n",
  "        }\n",
  "        println!(\"Result: {result:?}\");\n",
  "        //context.borrow().print_cache();\n",
  "        //context.borrow().print_publisher();\n",
  "        let publisher = context.into_inner().get_publisher();\n",
  "        publisher.print(Key(0), Some(true));\n",
  "        assert_eq!((result.0, result.1), (true, src_len));\n",
  "        let result = evaluate_tree(publisher, &string);\n",
  "        assert_eq!(result, 48);\n",
  "    }\n",
  "\n",
  "    #[test]\n",
  "    fn test_13() {\n",
  "        let string = \"7/5-3+15\".to_string();\n",
  "        let src_len = string.len() as u32;\n",
  "        let source = Source::new(&string);\n",
  "        let position: u32 = 0;\n",
  "        let result: (bool, u32);\n",
  "        let context = RefCell::new(BasicContext::new(src_len as usize, RULES_SIZE as usize));\n",
  "        let user_state: RefCell<UserState> = RefCell::new(UserState);\n",
  "        {\n",
  "            let executor = _var_name(&user_state, Rules::Grammar, &context, grammar);\n",
  "            result = executor(Key(0), &source, position);\n",
  "        }\n",
  "        println!(\"Result: {result:?}\");\n",
  "        //context.borrow().print_cache();\n",
  "        //context.borrow().print_publisher();\n",
  "        let publisher = context.into_inner().get_publisher();\n",
  "        publisher.print(Key(0), Some(true));\n",
  "        assert_eq!((result.0, result.1), (true, src_len));\n",
  "        let result = evaluate_tree(publisher, &string);\n",
  "        assert_eq!(result, 13);\n",
  "    }\n",
  "\n",
  "    #[test]\n",
  "    fn test_14() {\n",
  "        let string = \"7-5/3*4\".to_string();\n",
  "        let src_len = string.len() as u32;\n",
  "        let source = Source::new(&string);\n",
  "        let position: u32 = 0;\n",
  "        let result: (bool, u32);\n",
  "        let context = RefCell::new(BasicContext::new(src_len as usize, RULES_SIZE as usize));\n",
  "        let user_state: RefCell<UserState> = RefCell::new(UserState);\n",
  "        {\n",
  "            let executor = _var_name(&user_state, Rules::Grammar, &context, grammar);\n",
  "            result = executor(Key(0), &source, position);\n",
  "        }\n",
  "        println!(\"Result: {result:?}\");\n",
  "        //context.borrow().print_cache();\n",
  "        //context.borrow().print_publisher();\n",
  "        let publisher = context.into_inner().get_publisher();\n",
  "        publisher.print(Key(0), Some(true));\n",
  "        assert_eq!((result.0, result.1), (true, src_len));\n",
  "        let result = evaluate_tree(publisher, &string);\n",
  "        assert_eq!(result, 3);\n",
  "    }\n",
  "    #[test]\n",
  "    fn test_15() {\n",
  "        let string = \"(7-5)/(3*4)\".to_string();\n",
  "        let src_len = string.len() as u32;\n",
  "        let source = Source::new(&string);\n",
  "        let position: u32 = 0;\n",
  "        let result: (bool, u32);\n",
  "        let context = RefCell::new(BasicContext::new(src_len as usize, RULES_SIZE as usize));\n",
  "        let user_state: RefCell<UserState> = RefCell::new(UserState);\n",
  "        {\n",
  "            let executor = _var_name(&user_state, Rules::Grammar, &context, grammar);\n",
  "            result = executor(Key(0), &source, position);\n",
  "        }\n",
  "        println!(\"Result: {result:?}\");\n",
  "        //context.borrow().print_cache();\n",
  "        //context.borrow().print_publisher();\n",
  "        let publisher = context.into_inner().get_publisher();\n",
  "        publisher.print(Key(0), Some(true));\n",
  "        assert_eq!((result.0, result.1), (true, src_len));\n",
  "        let result = evaluate_tree(publisher, &string);\n",
  "        assert_eq!(result, 0);\n",
  "    }\n",
  "    #[test]\n",
  "    fn test_16() {\n",
  "        let string = \"(7-5)/(3*4)*20/2+5-19\".to_string();\n",
  "        let src_len = string.len() as u32;\n",
  "        let source = Source::new(&string);\n",
  "        let position: u32 = 0;\n",
  "        let result: (bool, u32);\n",
  "        let context = RefCell::new(BasicContext::new(src_len as usize, RULES_SIZE as usize));\n",
  "        let user_state: RefCell<UserState> = RefCell::new(UserState);\n",
  "        {\n",
  "            let executor = _var_name(&user_state, Rules::Grammar, &context, grammar);\n",
  "            result = executor(Key(0), &source, position);\n",
  "        }\n",
  "        println!(\"Result: {result:?}\");\n",
  "        //context.borrow().print_cache();\n",
  "        //context.borrow().print_publisher();\n",
  "        let publisher = context.into_inner().get_publisher();\n",
  "        publisher.print(Key(0), Some(true));\n",
  "        assert_eq!((result.0, result.1), (true, src_len));\n",
  "        let result = evaluate_tree(publisher, &string);\n",
  "        assert_eq!(result, -14);\n",
  "    }\n",
  "    #[test]\n",
  "    fn test_17() {\n",
  "        let string = \"7^5\".to_string();\n",
  "        let src_len = string.len() as u32;\n",
  "        let source = Source::new(&string);\n",
  "        let position: u32 = 0;\n",
  "        let result: (bool, u32);\n",
  "        let context = RefCell::new(BasicContext::new(src_len as usize, RULES_SIZE as usize));\n",
  "        let user_state: RefCell<UserState> = RefCell::new(UserState);\n",
  "        {\n",
  "            let executor = _var_name(&user_state, Rules::Grammar, &context, grammar);\n",
  "            result = executor(Key(0), &source, position);\n",
  "        }\n",
  "        println!(\"Result: {result:?}\");\n",
  "        //context.borrow().print_cache();\n",
  "        //context.borrow().print_publisher();\n",
  "        let publisher = context.into_inner().get_publisher();\n",
  "        publisher.print(Key(0), Some(true));\n",
  "        assert_eq!((result.0, result.1), (true, src_len));\n",
  "        let result = evaluate_tree(publisher, &string);\n",
  "        assert_eq!(result, 16807);\n",
  "    }\n",
  "    #[test]\n",
  "    fn test_18() {\n",
  "        let string = \"7+4^5\".to_string();\n",
  "        let src_len = string.len() as u32;\n",
  "        let source = Source::new(&string);\n",
  "        let position: u32 = 0;\n",
  "        let result: (bool, u32);\n",
  "        let context = RefCell::new(BasicContext::new(src_len as usize, RULES_SIZE as usize));\n",
  "        let user_state: RefCell<UserState> = RefCell::new(UserState);\n",
  "        {\n",
  "            let executor = _var_name(&user_state, Rules::Grammar, &context, grammar);\n",
  "            result = executor(Key(0), &source, position);\n",
  "        }\n",
  "        println!(\"Result: {result:?}\");\n",
  "        //context.borrow().print_cache();\n",
  "        //context.borrow().print_publisher();\n",
  "        let publisher = context.into_inner().get_publisher();\n",
  "        publisher.print(Key(0), Some(true));\n",
  "        assert_eq!((result.0, result.1), (true, src_len));\n",
  "        let result = evaluate_tree(publisher, &string);\n",
  "        assert_eq!(result, 1031);\n",
  "    }\n",
  "    #[test]\n",
  "    fn test_19() {\n",
  "        let string = \"7^5+4\".to_string();\n",
  "        let src_len = string.len() as u32;\n",
  "        let source = Source::new(&string);\n",
  "        let position: u32 = 0;\n",
  "        let result: (bool, u32);\n",
  "        let context = RefCell::new(BasicContext::new(src_len as usize, RULES_SIZE as usize));\n",
  "        let user_state: RefCell<UserState> = RefCell::new(UserState);\n",
  "        {\n",
  "            let executor = _var_name(&user_state, Rules::Grammar, &context, grammar);\n",
  "            result = executor(Key(0), &source, position);\n",
  "        }\n",
  "        println!(\"Result: {result:?}\");\n",
  "        //context.borrow().print_cache();\n",
  "        //context.borrow().print_publisher();\n",
  "        let publisher = context.into_inner().get_publisher();\n",
  "        publisher.print(Key(0), Some(true));\n",
  "        assert_eq!((result.0, result.1), (true, src_len));\n",
  "        let result = evaluate_tree(publisher, &string);\n",
  "        assert_eq!(result, 16811);\n",
  "    }\n",
  "    #[test]\n",
  "    fn test_20() {\n",
  "        let string = \"7^(5+4)\".to_string();\n",
  "        let src_len = string.len() as u32;\n",
  "        let source = Source::new(&string);\n",
  "        let position: u32 = 0;\n",
  "        let result: (bool, u32);\n",
  "        let context = RefCell::new(BasicContext::new(src_len as usize, RULES_SIZE as usize));\n",
  "        let user_state: RefCell<UserState> = RefCell::new(UserState);\n",
  "        {\n",
  "            let executor = _var_name(&user_state, Rules::Grammar, &context, grammar);\n",
  "            result = executor(Key(0), &source, position);\n",
  "        }\n",
  "        println!(\"Result: {result:?}\");\n",
  "        //context.borrow().print_cache();\n",
  "        //context.borrow().print_publisher();\n",
  "        let publisher = context.into_inner().get_publisher();\n",
  "        publisher.print(Key(0), Some(true));\n",
  "        assert_eq!((result.0, result.1), (true, src_len));\n",
  "        let result = evaluate_tree(publisher, &string);\n",
  "        assert_eq!(result, 40353607);\n",
  "    }\n",
  "    #[test]\n",
  "    fn test_21() {\n",
  "        let string = \"(7/5)^4\".to_string();\n",
  "        let src_len = string.len() as u32;\n",
  "        let source = Source::new(&string);\n",
  "        let position: u32 = 0;\n",
  "        let result: (bool, u32);\n",
  "        let context = RefCell::new(BasicContext::new(src_len as usize, RULES_SIZE as usize));\n",
  "        let user_state: RefCell<UserState> = RefCell::new(UserState);\n",
  "        {\n",
  "            let executor = _var_name(&user_state, Rules::Grammar, &context, grammar);\n",
  "            result = executor(Key(0), &source, position);\n",
  "        }\n",
  "        println!(\"Result: {result:?}\");\n",
  "        //context.borrow().print_cache();\n",
  "        //context.borrow().print_publisher();\n",
  "        let publisher = context.into_inner().get_publisher();\n",
  "        publisher.print(Key(0), Some(true));\n",
  "        assert_eq!((result.0, result.1), (true, src_len));\n",
  "        let result = evaluate_tree(publisher, &string);\n",
  "        assert_eq!(result, 1);\n",
  "    }\n",
  "\n",
  "    #[test]\n",
  "    fn test_22() {\n",
  "        let string = \"20/10\".to_string();\n",
  "        let src_len = string.len() as u32;\n",
  "        let source = Source::new(&string);\n",
  "        let position: u32 = 0;\n",
  "        let result: (bool, u32);\n",
  "        let context = RefCell::new(BasicContext::new(src_len as usize, RULES_SIZE as usize));\n",
  "        let user_state: RefCell<UserState> = RefCell::new(UserState);\n",
  "        {\n",
  "            let executor = _var_name(&user_state, Rules::Term, &context, term);\n",
  "            result = executor(Key(0), &source, position);\n",
  "        }\n",
  "        println!(\"Result: {result:?}\");\n",
  "        //context.borrow().print_cache();\n",
  "        //context.borrow().print_publisher();\n",
  "        let publisher = context.into_inner().get_publisher();\n",
  "        publisher.print(Key(0), Some(true));\n",
  "        assert_eq!((result.0, result.1), (true, src_len));\n",
  "        let result = evaluate_tree(publisher, &string);\n",
  "        assert_eq!(result, 2);\n",
  "    }\n",
  "    #[test]\n",
  "    fn test_29() {\n",
  "        let string = \"20-10\".to_string();\n",
  "        let src_len = string.len() as u32;\n",
  "        let source = Source::new(&string);\n",
  "        let position: u32 = 0;\n",
  "        let result: (bool, u32);\n",
  "        let context = RefCell::new(BasicContext::new(src_len as usize, RULES_SIZE as usize));\n",
  "        let user_state: RefCell<UserState> = RefCell::new(UserState);\n",
  "        {\n",
  "            let executor = _var_name(&user_state, Rules::Expr, &context, expr);\n",
  "            result = executor(Key(0), &source, position);\n",
  "        }\n",
  "        println!(\"Result: {result:?}\");\n",
  "        //context.borrow().print_cache();\n",
  "        //context.borrow().print_publisher();\n",
  "        let publisher = context.into_inner().get_publisher();\n",
  "        publisher.print(Key(0), Some(true));\n",
  "        assert_eq!((result.0, result.1), (true, src_len));\n",
  "        let result = evaluate_tree(publisher, &string);\n",
  "        assert_eq!(result, 10);\n",
  "    }\n",
  "}\n"]

end PP.CoreTexts
