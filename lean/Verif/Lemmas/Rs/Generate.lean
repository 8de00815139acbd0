import Verif.Lemmas.Rs.Construct
import Verif.Model.Runner

/-! # generator/src/constructor.rs, executed: the two files -/
namespace PP.Rs
open PP.Gen
variable (ord : List Val → List Val) {e : Gen.Env} {L : Val}

variable (e) in
/-- One round of the loop of `generate`. -/
def matchRule (fuel : Nat) (hooks : List Bytes) (i : Nat) : Out (RuleCode × List Bytes) := do
  let nd ← e.tree.getNode i
  if nd.rule = .r_rule then rule e fuel hooks i else .panic .explicit

variable (e) in
def generateStep (fuel : Nat) (acc : List RuleCode × List Bytes) (i : Nat) : Out (List RuleCode × List Bytes) := do
  let r ← matchRule e fuel acc.2 i
  .ok (acc.1 ++ [r.1], r.2)

theorem generate_eq (fuel : Nat) : generate e fuel = (do
    let node ← e.tree.getNode 0
    if node.rule ≠ .r_grammar then .panic .explicit
    else node.children.foldlM (generateStep e fuel) ([], [])) := by
  rw [generate]
  cases e.tree.getNode 0 with
  | oof => rfl
  | panic q => rfl
  | ok nd =>
    simp only [Out.bind_ok]
    congr 2
    funext acc i
    rw [generateStep, matchRule]
    cases e.tree.getNode i with
    | oof => rfl
    | panic q => rfl
    | ok nd =>
      simp only [Out.bind_ok]
      split <;> rfl

theorem call_match_rule {B : Nat} (hs : Given ord e L B) (n : Nat) (hooks : List Bytes) {root : Node Dsl} (h0 : e.tree.getNode 0 = .ok root) {i : Nat} (hi : i ∈ root.children) {m : Nat} (hm : 2 * n + 9 ≤ m) :
    (callN (World.gen ord) m Ast.GeneratedCode.match_rule [.vec (hooks.map .str), L, encSym e.src e.sym, encTree e.tree, .str e.src, encKey i]).Sim (matchRule e n hooks i)
      fun r => .ok (.str r.1.text) [.vec (r.2.map .str), L, encSym e.src e.sym, encTree e.tree, .str e.src, encKey i] := by
  rw [callN_succ rfl rfl (by omega), matchRule]
  rcases getNode_cases e.tree i with ⟨nd, h, hmem⟩ | ⟨q, h⟩
  · rw [h]
    simp only [Out.bind_ok]
    by_cases hr : nd.rule = .r_rule
    · rw [if_pos hr]
      cases ho : rule e n hooks i with
      | oof => trivial
      | panic q =>
        have hc := fun {m : Nat} (hm : 2 * n + 8 ≤ m) => CRes.Sim.of_panic (call_rule ord L hs n hooks h0 hi hm) ho
        rs [Ast.GeneratedCode.match_rule, callMeth_pub, call_get_node ord h, fieldVal_rule, pm_rule, hr, hc]
        rfl
      | ok r =>
        have hc := fun {m : Nat} (hm : 2 * n + 8 ≤ m) => CRes.Sim.of_ok (call_rule ord L hs n hooks h0 hi hm) ho
        rs [Ast.GeneratedCode.match_rule, callMeth_pub, call_get_node ord h, fieldVal_rule, pm_rule, hr, hc]
        rfl
    · rw [if_neg hr]
      rs [Ast.GeneratedCode.match_rule, callMeth_pub, call_get_node ord h, fieldVal_rule, pm_rule, hr, macroCall]
      rfl
  · rw [h]
    rs [Ast.GeneratedCode.match_rule, callMeth_pub, call_get_node_panic ord h]
    rfl

theorem call_generate {B : Nat} (hs : Given ord e L B) (n : Nat) {m : Nat} (hm : 2 * n + B + 12 ≤ m) :
    (callN (World.gen ord) m Ast.GeneratedCode.generate [.vec [], L, encSym e.src e.sym, encTree e.tree, .str e.src]).Sim (generate e n)
      fun r => .ok (.vec (r.1.map fun r => .str r.text)) [.vec (r.2.map .str), L, encSym e.src e.sym, encTree e.tree, .str e.src] := by
  rw [callN_succ rfl rfl (by omega), generate_eq]
  rcases getNode_cases e.tree 0 with ⟨nd, h, hmem⟩ | ⟨q, h⟩
  · rw [h]
    simp only [Out.bind_ok]
    have hw := hs.fits.width nd hmem
    by_cases hr : nd.rule = .r_grammar
    · rw [if_neg (by simpa using hr)]
      rs [Ast.GeneratedCode.generate, callMeth_pub, key_fold, call_get_node ord h, fieldVal_rule, ne_grammar, hr, ne_eq, not_true, decide_false]
      generalize hL : loopN _ _ _ = R
      generalize hO : (List.foldlM _ _ _ : Out _) = O
      have R : Loop R O (fun _ => True) fun r => [(n!"rules", .vec (r.1.map fun r => .str r.text)), (n!"counter", .num false nd.children.length), (n!"node", encNode nd),
          (n!"hooked_call_imports_required", .vec (r.2.map .str)), (n!"left_recursive_rules", L), (n!"symbol_table", encSym e.src e.sym), (n!"tree", encTree e.tree), (n!"source", .str e.src)] := by
        rw [← hL, ← hO]
        refine loopN_loop (P := fun _ => True) (E := fun c (r : List RuleCode × List Bytes) => [(n!"rules", .vec (r.1.map fun r => .str r.text)), (n!"counter", .num false c), (n!"node", encNode nd),
          (n!"hooked_call_imports_required", .vec (r.2.map .str)), (n!"left_recursive_rules", L), (n!"symbol_table", encSym e.src e.sym), (n!"tree", encTree e.tree), (n!"source", .str e.src)])
          rfl trivial ?_ (fun t => ?_) fun c b hb hc t _ => ?_
        · omega
        · rs [callMeth_node, call_get_children, vecLib, List.length_map, binop, Nat.le_refl, decide_true]
        · have hcl : decide (nd.children.length ≤ c) = false := by simpa using hc
          have hc1 : c + 1 < numLimit false := by have := hs.fits.bound; simp [numLimit]; omega
          rw [generateStep]
          cases ho : matchRule e n t.2 b with
          | oof => trivial
          | panic q =>
            have H := fun {m : Nat} (hm : 2 * n + 9 ≤ m) => CRes.Sim.of_panic (call_match_rule ord hs n t.2 h (List.mem_of_getElem? hb) hm) ho
            refine .panic ?_
            rs [callMeth_node, call_get_children, vecLib, List.length_map, binop, hcl, index_children hb, H]
          | ok t' =>
            have H := fun {m : Nat} (hm : 2 * n + 9 ≤ m) => CRes.Sim.of_ok (call_match_rule ord hs n t.2 h (List.mem_of_getElem? hb) hm) ho
            refine .ok (v := unit) ?_ trivial
            rs [callMeth_node, call_get_children, vecLib, List.length_map, binop, hcl, index_children hb, H, addTo, hc1, Bool.or_false]
            simp
      clear hL hO
      loop_end
    · rw [if_pos (by simpa using hr)]
      rs [Ast.GeneratedCode.generate, callMeth_pub, key_fold, call_get_node ord h, fieldVal_rule, ne_grammar, hr, ne_eq, not_false_iff, decide_true, macroCall]
      rfl
  · rw [h]
    rs [Ast.GeneratedCode.generate, callMeth_pub, key_fold, call_get_node_panic ord h]
    rfl

/-! ## The names of hooks are ASCII -/

def KeepsA (g : Acc → Nat → Out (Nat × Acc)) (i : Nat) : Prop := ∀ a r, AsciiAll a.2 → g a i = .ok r → AsciiAll r.2.2

theorem keepsA_terminal (i : Nat) : KeepsA (terminal e) i := by
  intro a r ha h
  rw [terminal] at h
  obtain ⟨nd, -, h⟩ := bind_ok_cases h
  split at h
  · cases h
  · split at h
    · cases h; exact ha
    · obtain ⟨c, -, h⟩ := bind_ok_cases h
      cases h; exact ha

theorem keepsA_varName (i : Nat) : KeepsA (varName e) i := by
  intro a r ha h
  rw [varName] at h
  obtain ⟨nd, -, h⟩ := bind_ok_cases h
  obtain ⟨c, hc, h⟩ := bind_ok_cases h
  split at h
  · obtain ⟨vs, hvs, h⟩ := bind_ok_cases h
    cases h; exact ha
  · split at h <;> (cases h; exact ha)

theorem keepsA_range (i : Nat) : KeepsA (orderedChoiceMatchRange e) i := by
  intro a r ha h
  rw [orderedChoiceMatchRange] at h
  obtain ⟨nd, -, h⟩ := bind_ok_cases h
  obtain ⟨⟨k, t⟩, hk, h⟩ := bind_ok_cases h
  cases h
  exact ha

theorem keepsA_string (i : Nat) : KeepsA (stringTerminal e) i := by
  intro a r ha h
  rw [stringTerminal] at h
  obtain ⟨nd, -, h⟩ := bind_ok_cases h
  obtain ⟨data, hd, h⟩ := bind_ok_cases h
  cases h
  exact ha

theorem keepsA_childLoop {f : Dsl → Option (Acc → Nat → Out (Nat × Acc))} (hf : ∀ r i g, f r = some g → KeepsA g i)
    (is : List Nat) (ret : Nat) (a : Acc) (r) (ha : AsciiAll a.2) (h : childLoop e f is ret a = .ok r) : AsciiAll r.2.2 := by
  induction is generalizing ret a with
  | nil =>
    rw [childLoop] at h
    cases h
    exact ha
  | cons i is ih =>
    rw [childLoop] at h
    obtain ⟨nd, hg, h⟩ := bind_ok_cases h
    split at h
    · cases h
    · rename_i g hfg
      obtain ⟨r', hr', h⟩ := bind_ok_cases h
      exact ih _ _ (hf _ i g hfg a r' ha hr') h

theorem keepsA_unary {f : Acc → Nat → Out (Nat × Acc)} {i : Nat} (hf : KeepsA f i) {r : Reference} : KeepsA (pushUnary r f) i := by
  intro a x ha h
  rw [pushUnary] at h
  obtain ⟨r', hr', h⟩ := bind_ok_cases h
  cases h
  exact hf a r' ha hr'

theorem keepsA_chainLoop {g : Acc → Nat → Out (Nat × Acc)} (hg : ∀ i, KeepsA g i) {ref : Reference}
    (is : List Nat) (last : Option Nat) (a : Acc) (r) (ha : AsciiAll a.2) (h : chainLoop e ref g is last a = .ok r) : AsciiAll r.2.2 := by
  induction is generalizing last a with
  | nil =>
    rw [chainLoop] at h
    cases h
    exact ha
  | cons i is ih =>
    rw [chainLoop] at h
    obtain ⟨nd, -, h⟩ := bind_ok_cases h
    split at h
    · cases h
    · obtain ⟨r', hr', h⟩ := bind_ok_cases h
      have h1 := hg i a r' ha hr'
      cases last with
      | none => exact ih _ _ h1 h
      | some l => exact ih (some (r'.2.1.push ref (some l) (some r'.1)).1) ((r'.2.1.push ref (some l) (some r'.1)).2, r'.2.2) h1 h

theorem keepsA_expr (hi : Input e) (n : Nat) : ∀ f i, KeepsA (expr e n f) i := by
  induction n with
  | zero =>
    intro f i a r _ h
    cases h
  | succ n ih =>
    intro f i a r ha h
    cases f <;> rw [expr] at h <;> obtain ⟨nd, hg, h⟩ := bind_ok_cases h
    case hookedCall =>
      obtain ⟨c, -, h⟩ := bind_ok_cases h
      obtain ⟨cd, -, h⟩ := bind_ok_cases h
      split at h
      · cases h
      · obtain ⟨name, hn, h⟩ := bind_ok_cases h
        obtain ⟨r', hr', h⟩ := bind_ok_cases h
        cases h
        refine ih .subexpression i (a.1, a.2 ++ [name]) r' ?_ hr'
        intro s hs
        rcases List.mem_append.1 hs with hs | hs
        · exact ha s hs
        · simp only [List.mem_singleton] at hs
          subst hs
          exact strSlice_ascii hi.ascii hn
    case orderedChoice => exact keepsA_chainLoop (ih .atom) _ _ _ _ ha h
    case sequence => exact keepsA_chainLoop (ih .atom) _ _ _ _ ha h
    case nucleus =>
      refine keepsA_childLoop ?_ _ _ _ _ ha h
      intro r i g hf
      split at hf <;> cases hf
      · exact ih .subexpression i
      · exact keepsA_terminal i
      · exact keepsA_varName i
      · exact keepsA_range i
      · exact keepsA_string i
      · exact ih .hookedCall i
    all_goals
      refine keepsA_childLoop ?_ _ _ _ _ ha h
      intro r i g hf
      split at hf <;> cases hf <;> first | exact ih _ i | exact keepsA_unary (ih _ i)

theorem foldlM_keeps {σ β : Type} {step : σ → β → Out σ} {P : σ → Prop} (h : ∀ s b s', P s → step s b = .ok s' → P s') (xs : List β) (s s' : σ) (hP : P s)
    (ho : xs.foldlM step s = .ok s') : P s' := by
  induction xs generalizing s with
  | nil => cases ho; exact hP
  | cons b xs ih =>
    rw [List.foldlM_cons] at ho
    obtain ⟨t, ht, ho⟩ := bind_ok_cases ho
    exact ih t (h s b t hP ht) ho

theorem rule_ascii (hi : Input e) {n : Nat} {hooks : List Bytes} {i : Nat} {r} (hh : AsciiAll hooks) (h : rule e n hooks i = .ok r) : AsciiAll r.2 := by
  rw [rule_eq] at h
  obtain ⟨nd, -, h⟩ := bind_ok_cases h
  obtain ⟨s, hs, h⟩ := bind_ok_cases h
  obtain ⟨nm, -, h⟩ := bind_ok_cases h
  cases h
  refine foldlM_keeps (P := fun s : RuleAcc => AsciiAll s.hooks) ?_ _ _ _ hh hs
  intro s b s' hP h
  rw [ruleStep] at h
  obtain ⟨cd, -, h⟩ := bind_ok_cases h
  split at h
  · obtain ⟨nm, -, h⟩ := bind_ok_cases h
    cases h; exact hP
  · split at h
    · obtain ⟨⟨k, t, hk⟩, hx, h⟩ := bind_ok_cases h
      obtain ⟨ls, -, h⟩ := bind_ok_cases h
      cases h
      exact keepsA_expr hi n .rhs b _ _ hP hx
    · split at h
      · obtain ⟨nm, -, h⟩ := bind_ok_cases h
        cases h; exact hP
      · cases h; exact hP

theorem generate_ascii (hi : Input e) {n : Nat} {r} (h : generate e n = .ok r) : AsciiAll r.2 := by
  rw [generate_eq] at h
  obtain ⟨nd, -, h⟩ := bind_ok_cases h
  split at h
  · cases h
  · refine foldlM_keeps (P := fun s : List RuleCode × List Bytes => AsciiAll s.2) ?_ _ _ _ (by intro s hs; cases hs) h
    intro s b s' hP h
    rw [generateStep, matchRule] at h
    obtain ⟨r, hr, h⟩ := bind_ok_cases h
    cases h
    obtain ⟨cd, -, hr⟩ := bind_ok_cases hr
    split at hr
    · exact rule_ascii hi hP hr
    · cases hr

/-! ## The enumeration -/

abbrev capEx' : Ex :=
  .block (.letS (.var n!"start_char") (.meth (.meth (.meth (.path [n!"s"]) n!"chars" .nil) n!"nth" (.cons (.int 0) .nil)) n!"expect"
      (.cons (.str (utf8Of "Should exist")) .nil))
    (.letS (.var n!"start_char") (.meth (.meth (.path [n!"start_char"]) n!"to_uppercase" .nil) n!"to_string" .nil)
    (.letS (.var n!"rule_name") (.bin .add (.path [n!"start_char"]) (.field (.meth (.meth (.path [n!"s"]) n!"split_at_checked" (.cons (.int
      1) .nil)) n!"unwrap" .nil) 1))
    (.tail (.path [n!"rule_name"])))))

theorem clo_cap_nil' (env : Env) {n : Nat} (hn : 1 ≤ n) : cloN (World.gen ord) n [n!"s"] capEx' env [.str []] = .panic := by
  obtain ⟨m, rfl⟩ : ∃ m, n = m + 1 := ⟨n - 1, by omega⟩
  rw [cloN]
  rs [capEx', strLib, ascii, List.all_nil, Bool.not_true, Bool.false_eq_true, vecLib, List.getElem?_nil, optLib]

theorem clo_cap' {c : UInt8} {cs : Bytes} (h : ascii (c :: cs)) (env : Env) {n : Nat} (hn : 1 ≤ n) :
    cloN (World.gen ord) n [n!"s"] capEx' env [.str (c :: cs)] = .ok (.str (upperByte c :: cs)) (.str (c :: cs) :: env.map (·.2)) := by
  obtain ⟨m, rfl⟩ : ∃ m, n = m + 1 := ⟨n - 1, by omega⟩
  rw [cloN]
  have ⟨h1, h2⟩ := ascii_cons.1 h
  have hs (s : Bytes) : strLib n!"to_string" s [] = .ok (.str s) .none := by simp [strLib]
  have hc : strLib n!"chars" (c :: cs) [] = .ok (.vec ((c :: cs).map fun c => .char c.toNat)) .none := by simp [strLib, h]
  rs [capEx', hc, vecLib, List.getElem?_cons_zero, optLib, upper_lib h1, hs, split_lib h2, List.getElem?_cons_succ, binop]

def enumText (vs : List Bytes) : Bytes := (vs.map fun v => utf8Of "\t" ++ v ++ utf8Of ",\n").flatten

theorem comma_nl : utf8Of ",\n" = utf8Of "," ++ utf8Of "\n" := by decide +kernel

theorem call_rules_enum (src : Bytes) (t : SymbolTable) (ha : AsciiAll t.names) (hl : t.names.length < 4294967296) {m : Nat} (hm : 3 ≤ m) :
    (callN (World.gen ord) m Ast.GeneratedCode.generate_rules_enum [encSym src t]).Sim (generateRulesEnum t)
      fun r => .ok (.tuple [.str (utf8Of "pub enum Rules {\n" ++ enumText r.1 ++ utf8Of "\n}"), .num false r.2]) [encSym src t] := by
  rw [callN_succ rfl rfl (by omega), generateRulesEnum]
  rs [Ast.GeneratedCode.generate_rules_enum, callMeth_sym, call_get_names, items, to_string_lib]
  generalize hR : forN _ _ _ = R
  generalize hO : (List.foldlM _ _ _ : Out _) = O
  have R : Loop R O (fun r => r.2 ≤ t.names.length) fun r => [(n!"count", .num false r.2), (n!"rules_enum", .str (utf8Of "pub enum Rules {\n" ++ enumText r.1)), (n!"symbol_table", encSym src t)] := by
    rw [← hR, ← hO]
    refine forN_count (E := fun _ (r : List Bytes × Nat) => [(n!"count", .num false r.2), (n!"rules_enum", .str (utf8Of "pub enum Rules {\n" ++ enumText r.1)), (n!"symbol_table", encSym src t)])
      (P := fun c (r : List Bytes × Nat) => r.2 ≤ c) (by simp [enumText]) (Nat.le_refl _) fun c s hc hs r hP => ?_
    have hc1 : r.2 + 1 < numLimit false := by simp [numLimit]; omega
    simp only [inScope]
    cases hin : t.isInline s with
    | true =>
      simp only [Bool.not_true, Bool.false_eq_true, if_false]
      refine .ok (v := unit) ?_ (by omega)
      rs [callMeth_sym, call_is_inline, hin, Bool.not_true, unit]
    | false =>
      simp only [Bool.not_false, if_true]
      cases s with
      | nil =>
        refine .panic ?_
        rs [callMeth_sym, call_is_inline, hin, Bool.not_false, unit, push_tab_lib, to_string_lib, clo_cap_nil']
      | cons b bs =>
        simp only [capitalise, Out.bind_ok]
        refine .ok (v := unit) ?_ (by simp; omega)
        rs [callMeth_sym, call_is_inline, hin, Bool.not_false, unit, push_tab_lib, to_string_lib, clo_cap' ord (ha _ hs), push_str_lib, push_comma_lib, push_nl_lib, addTo, binop, hc1, Bool.or_false]
        simp [enumText, comma_nl]
  clear hR hO
  cases O with
  | oof => trivial
  | panic q => obtain rfl := R; rfl
  | ok r =>
    obtain ⟨rfl, -⟩ := R
    rs [push_str_lib]
    rfl

/-! ## The code and the files -/

def rulesEnumHeader : Bytes := utf8Of "#![allow(non_camel_case_types)] // Again due to generation -> Might solve eventually\nuse num_derive::FromPrimitive;\nimpl From<u32> for Rules {\n    fn from(i: u32) -> Rules {\n        let element = num::FromPrimitive::from_u32(i);\n        match element {\n            Some(rule) => rule,\n            None => panic!(\"Not a valid Rule\"),\n        }\n    }\n}"
def rulesEnumHeader2 : Bytes := utf8Of "#[allow(clippy::upper_case_acronyms)] // Again due to generation -> Might solve eventually\n#[derive(PartialEq, Eq, Hash, FromPrimitive, Clone, Copy, Debug, Ord, PartialOrd)]\n"
def rulesSizeHeader : Bytes := utf8Of "#[allow(dead_code)]\npub static RULES_SIZE: u32 = "

set_option maxRecDepth 100000 in
theorem indoc_header : macroCall n!"indoc" [.str (utf8Of "#![allow(non_camel_case_types)] // Again due to generation -> Might solve eventually\n            use num_derive::FromPrimitive;\n            impl From<u32> for Rules {\n                fn from(i: u32) -> Rules {\n                    let element = num::FromPrimitive::from_u32(i);\n                    match element {\n                        Some(rule) => rule,\n                        None => panic!(\"Not a valid Rule\"),\n                    }\n                }\n            }")] = .ok (.str rulesEnumHeader) .none := by
  have : unindent (utf8Of "#![allow(non_camel_case_types)] // Again due to generation -> Might solve eventually\n            use num_derive::FromPrimitive;\n            impl From<u32> for Rules {\n                fn from(i: u32) -> Rules {\n                    let element = num::FromPrimitive::from_u32(i);\n                    match element {\n                        Some(rule) => rule,\n                        None => panic!(\"Not a valid Rule\"),\n                    }\n                }\n            }") = rulesEnumHeader := by decide +kernel
  simp [macroCall, this]

set_option maxRecDepth 100000 in
theorem indoc_header2 : macroCall n!"indoc" [.str (utf8Of "\n            #[allow(clippy::upper_case_acronyms)] // Again due to generation -> Might solve eventually\n            #[derive(PartialEq, Eq, Hash, FromPrimitive, Clone, Copy, Debug, Ord, PartialOrd)]\n        ")] = .ok (.str rulesEnumHeader2) .none := by
  have : unindent (utf8Of "\n            #[allow(clippy::upper_case_acronyms)] // Again due to generation -> Might solve eventually\n            #[derive(PartialEq, Eq, Hash, FromPrimitive, Clone, Copy, Debug, Ord, PartialOrd)]\n        ") = rulesEnumHeader2 := by decide +kernel
  simp [macroCall, this]

set_option maxRecDepth 100000 in
theorem indoc_size : macroCall n!"indoc" [.str (utf8Of "#[allow(dead_code)]\n                pub static RULES_SIZE: u32 = ")] = .ok (.str rulesSizeHeader) .none := by
  have : unindent (utf8Of "#[allow(dead_code)]\n                pub static RULES_SIZE: u32 = ") = rulesSizeHeader := by decide +kernel
  simp [macroCall, this]

set_option maxRecDepth 100000 in
theorem indoc_parser : macroCall n!"indoc" [.str (utf8Of "#![allow(non_camel_case_types)] // Generated Code kinda annoying to deal with so w/e\n            #![allow(unused_variables)] // Generated Code also, since everything passes stuff\n            #![allow(unused_imports)] // Generated Code also, since everything passes stuff\n            use crate::*;\n            use std::cell::RefCell;")] = .ok (.str Run.parserHeader) .none := by
  have : unindent (utf8Of "#![allow(non_camel_case_types)] // Generated Code kinda annoying to deal with so w/e\n            #![allow(unused_variables)] // Generated Code also, since everything passes stuff\n            #![allow(unused_imports)] // Generated Code also, since everything passes stuff\n            use crate::*;\n            use std::cell::RefCell;") = Run.parserHeader := by decide +kernel
  simp [macroCall, this]

theorem to_owned_lib (s : Bytes) : strLib n!"to_owned" s [] = .ok (.str s) .none := by simp [strLib]

theorem println_lib (vs) : macroCall n!"println" vs = .ok unit .none := by simp [macroCall]

/-- The value of a `GeneratedCode`. -/
def encCode (c : GeneratedCode) : Val := .struct n!"GeneratedCode"
  [(n!"rules_enum_header", .str rulesEnumHeader), (n!"rules_size_header", .str rulesSizeHeader), (n!"parser_header", .str (Run.parserHeader ++ Run.hookImport c.hookImports)),
   (n!"rules", .vec (c.rules.map fun r => .str r.text)), (n!"rules_enum", .str (utf8Of "pub enum Rules {\n" ++ enumText c.variants ++ utf8Of "\n}")), (n!"num_rules", .num false c.numRules),
   (n!"rules_enum_header_2", .str rulesEnumHeader2)]

def commas (hooks : List Bytes) : Bytes := (hooks.map fun h => h ++ utf8Of ",").flatten

theorem commas_fold (ls : List Bytes) (a : Bytes) :
    (ls.foldlM (fun a l => .ok (a ++ (l ++ utf8Of ","))) a : Out Bytes) = .ok (a ++ commas ls) := by
  induction ls generalizing a with
  | nil => simp [commas]
  | cons l ls ih =>
    rw [List.foldlM_cons]
    simp only [Out.bind_ok, ih]
    simp [commas]

theorem utf8_comma : utf8Of "," = [44] := by decide +kernel

theorem commas_dropLast (h : Bytes) (hs : List Bytes) : (commas (h :: hs)).dropLast = List.intercalate (utf8Of ",") (h :: hs) := by
  induction hs generalizing h with
  | nil => simp [commas, utf8_comma]
  | cons g hs ih =>
    have := ih g
    rw [show commas (h :: g :: hs) = h ++ utf8Of "," ++ commas (g :: hs) by simp [commas], List.dropLast_append_of_ne_nil (by simp [commas, utf8_comma]), this]
    simp [List.intercalate, List.intersperse]

theorem ascii_commas {l : List Bytes} (h : AsciiAll l) : ascii (commas l) = true := by
  induction l with
  | nil => rfl
  | cons s l ih =>
    rw [show commas (s :: l) = s ++ utf8Of "," ++ commas l by simp [commas]]
    simp only [ascii, List.all_append, Bool.and_eq_true] at ih h ⊢
    exact ⟨⟨h s (by simp), by decide +kernel⟩, ih fun x hx => h x (by simp [hx])⟩

theorem call_code {B : Nat} (hs : Given ord e L B) (n : Nat) {m : Nat} (hm : 2 * n + B + 13 ≤ m) :
    (callN (World.gen ord) m Ast.GeneratedCode.new [L, encSym e.src e.sym, encTree e.tree, .str e.src]).Sim (GeneratedCode.new e n)
      fun c => .ok (encCode c) [L, encSym e.src e.sym, encTree e.tree, .str e.src] := by
  rw [callN_succ rfl rfl (by omega), GeneratedCode.new]
  cases ho : generate e n with
  | oof => trivial
  | panic q =>
    have H := fun {m : Nat} (hm : 2 * n + B + 12 ≤ m) => CRes.Sim.of_panic (call_generate ord hs n hm) ho
    rs [Ast.GeneratedCode.new, println_lib, H]
    rfl
  | ok r =>
    have H := fun {m : Nat} (hm : 2 * n + B + 12 ≤ m) => CRes.Sim.of_ok (call_generate ord hs n hm) ho
    have hh := generate_ascii hs.input ho
    obtain ⟨rules, hooks⟩ := r
    simp only [Out.bind_ok]
    simp only at H hh
    cases ho' : generateRulesEnum e.sym with
    | oof => trivial
    | panic q =>
      have H' := fun {m : Nat} (hm : 3 ≤ m) => CRes.Sim.of_panic (call_rules_enum ord e.src e.sym hs.names hs.count hm) ho'
      rs [Ast.GeneratedCode.new, println_lib, H, H']
      rfl
    | ok r' =>
      have H' := fun {m : Nat} (hm : 3 ≤ m) => CRes.Sim.of_ok (call_rules_enum ord e.src e.sym hs.names hs.count hm) ho'
      obtain ⟨vars, num⟩ := r'
      simp only [Out.bind_ok]
      simp only at H'
      cases hooks with
      | nil =>
        simp only [List.map_nil] at H
        rs [Ast.GeneratedCode.new, println_lib, H, H', indoc_header, indoc_header2, indoc_size, indoc_parser, to_string_lib, vecLib, List.isEmpty_nil, Bool.not_true]
        simp [CRes.Sim, encCode, Run.hookImport]
      | cons g gs =>
        have hne : (List.map Val.str (g :: gs)).isEmpty = false := rfl
        generalize hG : g :: gs = hooks at *
        rs [Ast.GeneratedCode.new, println_lib, H, H', indoc_header, indoc_header2, indoc_size, indoc_parser, to_string_lib, vecLib, hne, Bool.not_false, items]
        generalize hR : forN _ _ _ = R
        have R : Loop R (.ok (utf8Of "use crate::hooked_calls::{" ++ commas hooks)) (fun _ => True) fun x => (n!"import", .str x) :: [(n!"parser_header", .str Run.parserHeader),
            (n!"rules_size_header", .str rulesSizeHeader), (n!"rules_enum_header_2", .str rulesEnumHeader2), (n!"rules_enum_header", .str rulesEnumHeader),
            (n!"rules_enum", .str (utf8Of "pub enum Rules {\n" ++ enumText vars ++ utf8Of "\n}")), (n!"num_rules", .num false num), (n!"rules", .vec (rules.map fun r => .str r.text)),
            (n!"hooked_call_imports_required", .vec (hooks.map .str)), (n!"left_recursive_rules", L), (n!"symbol_table", encSym e.src e.sym), (n!"tree", encTree e.tree), (n!"source", .str e.src)] := by
          rw [← hR, ← commas_fold]
          refine forN_loop rfl trivial fun l _ x _ => ?_
          refine .ok (v := unit) ?_ trivial
          simp only [inScope]
          rs [addTo, binop]
        clear hR
        obtain ⟨rfl, -⟩ := R
        have hpa : ascii (utf8Of "use crate::hooked_calls::{" ++ commas hooks) = true := by
          simp only [ascii, List.all_append, Bool.and_eq_true]
          exact ⟨by decide +kernel, ascii_commas hh⟩
        obtain ⟨pv, hpop⟩ := pop_lib hpa
        have hd : (utf8Of "use crate::hooked_calls::{" ++ commas hooks).dropLast = utf8Of "use crate::hooked_calls::{" ++ List.intercalate (utf8Of ",") hooks := by
          subst hG
          rw [List.dropLast_append_of_ne_nil (by simp [commas, utf8_comma]), commas_dropLast]
        rw [hd] at hpop
        rs [hpop, addTo, binop, to_owned_lib, println_lib]
        subst hG
        simp [CRes.Sim, encCode, Run.hookImport]

theorem texts_fold (ls : List RuleCode) (a : Bytes) :
    (ls.foldlM (fun a l => .ok (a ++ l.text)) a : Out Bytes) = .ok (a ++ (ls.map RuleCode.text).flatten) := by
  induction ls generalizing a with
  | nil => simp
  | cons l ls ih =>
    rw [List.foldlM_cons]
    simp only [Out.bind_ok, ih]
    simp

theorem call_parser_file (c : GeneratedCode) {m : Nat} (hm : 2 ≤ m) :
    callN (World.gen ord) m Ast.GeneratedCode.parser_file_content [encCode c] = .ok (.str (Run.parserFile c)) [encCode c] := by
  rw [callN_succ rfl rfl (by omega)]
  rs [Ast.GeneratedCode.parser_file_content, encCode, items, to_string_lib]
  generalize hR : forN _ _ _ = R
  have R : Loop R (.ok (c.rules.map RuleCode.text).flatten) (fun _ => True) fun x => [(n!"rules", .str x), (n!"self", encCode c)] := by
    have hf := texts_fold c.rules (utf8Of "")
    rw [utf8_nil, List.nil_append] at hf
    rw [← hR, ← hf]
    refine forN_loop (by rw [utf8_nil]; rfl) trivial fun l _ x _ => ?_
    refine .ok (v := unit) ?_ trivial
    simp only [inScope]
    rs [push_str_lib]
  clear hR
  obtain ⟨rfl, -⟩ := R
  rs [encCode, render, disp, utf8_nil]
  simp [Run.parserFile]

set_option maxRecDepth 100000 in
theorem call_rules_file (c : GeneratedCode) {m : Nat} (hm : 2 ≤ m) :
    callN (World.gen ord) m Ast.GeneratedCode.rules_enum_file_content [encCode c] = .ok (.str (Run.rulesFile c)) [encCode c] := by
  rw [callN_succ rfl rfl (by omega)]
  rs [Ast.GeneratedCode.rules_enum_file_content, encCode, render, disp, utf8_nil, decimal_eq]
  have h1 : Run.rulesHeader = rulesEnumHeader ++ utf8Of "\n" ++ rulesSizeHeader ++ utf8Of " " := by decide +kernel
  have h2 : Run.rulesHeader2 = utf8Of ";" ++ utf8Of "\n" ++ rulesEnumHeader2 ++ utf8Of "\n" ++ utf8Of "pub enum Rules {\n" := by decide +kernel
  simp [Run.rulesFile, h1, h2, enumText]

end PP.Rs
