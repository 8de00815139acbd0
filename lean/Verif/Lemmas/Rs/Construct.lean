import Verif.Lemmas.Rs.OutTree
import Verif.Lemmas.Rs.ToString
import Verif.Model.Runner

/-! # constructor.rs: rules, enum and files, executed -/
namespace PP.Rs
open Gen

variable (ord : List Val → List Val) {e : Gen.Env} (S L : Val)

/-! ## Strings -/

theorem pop_lib {s : Bytes} (h : ascii s = true) : ∃ v, strLib n!"pop" s [] = .ok v (.some (.str s.dropLast)) := ⟨_, by simp [strLib, h]; rfl⟩
theorem empty_lib (s : Bytes) : strLib n!"is_empty" s [] = .ok (.bool s.isEmpty) .none := by simp [strLib]
theorem remove_lib {c : UInt8} {s : Bytes} (h : ascii (c :: s) = true) (w) : strLib n!"remove" (c :: s) [.num w 0] = .ok (.char c.toNat) (.some (.str s)) := by simp [strLib, h]
theorem lower_lib {s : Bytes} (h : ascii s = true) : strLib n!"to_lowercase" s [] = .ok (.str (lower s)) .none := by simp [strLib, h, lower, lowerByte]
theorem push_str_lib (s t : Bytes) : strLib n!"push_str" s [.str t] = .ok unit (.some (.str (s ++ t))) := by simp [strLib]
theorem push_tab_lib (s : Bytes) : strLib n!"push" s [.char 9] = .ok unit (.some (.str (s ++ utf8Of "\t"))) := by
  have : String.utf8EncodeChar (Char.ofNat 9) = utf8Of "\t" := by decide +kernel
  simp [strLib, this]
theorem push_nl_lib (s : Bytes) : strLib n!"push" s [.char 10] = .ok unit (.some (.str (s ++ utf8Of "\n"))) := by
  have : String.utf8EncodeChar (Char.ofNat 10) = utf8Of "\n" := by decide +kernel
  simp [strLib, this]
theorem push_comma_lib (s : Bytes) : strLib n!"push" s [.char 44] = .ok unit (.some (.str (s ++ utf8Of ","))) := by
  have : String.utf8EncodeChar (Char.ofNat 44) = utf8Of "," := by decide +kernel
  simp [strLib, this]
theorem trim_lib {s : Bytes} (h : ascii s = true) : strLib n!"trim" s [] = .ok (.str (trim s)) .none := by
  have : space = isSpace := by funext c; simp [space, isSpace]
  simp [strLib, h, trim, this]

theorem splitLines_ne (s : Bytes) : splitLines s ≠ [] := by
  cases s with
  | nil => simp [splitLines]
  | cons c s =>
    rw [splitLines]
    split
    · simp
    · split <;> simp

theorem splitNl_eq (s acc : Bytes) : splitNl acc s = match splitLines s with | [] => [acc.reverse] | l :: ls => (acc.reverse ++ l) :: ls := by
  induction s generalizing acc with
  | nil => simp [splitNl, splitLines]
  | cons c s ih =>
    rw [splitNl, splitLines]
    split
    · rw [ih]
      cases hs : splitLines s with
      | nil => exact absurd hs (splitLines_ne s)
      | cons l ls => simp
    · rw [ih]
      cases hs : splitLines s with
      | nil => simp
      | cons l ls => simp

theorem split_lines_lib (s : Bytes) : strLib n!"split" s [.str (utf8Of "\n")] = .ok (.vec ((splitLines s).map .str)) .none := by
  have h : utf8Of "\n" = [10] := by decide +kernel
  have := splitNl_eq s []
  cases hs : splitLines s with
  | nil => exact absurd hs (splitLines_ne s)
  | cons l ls =>
    rw [hs] at this
    simp only [List.reverse_nil, List.nil_append] at this
    simp [strLib, h, this]

theorem ascii_lines {s : Bytes} (h : ascii s = true) : ∀ l ∈ splitLines s, ascii l = true := by
  induction s with
  | nil => intro l hl; simp [splitLines] at hl; subst hl; rfl
  | cons c s ih =>
    have ⟨h1, h2⟩ := ascii_cons.1 h
    have ih := ih h2
    rw [splitLines]
    split
    · intro l hl
      rcases List.mem_cons.1 hl with rfl | hl
      · rfl
      · exact ih l hl
    · split
      · intro l hl
        simp only [List.mem_singleton] at hl
        subst hl
        exact ascii_cons.2 ⟨h1, rfl⟩
      · rename_i l' ls hs
        rw [hs] at ih
        intro l hl
        rcases List.mem_cons.1 hl with rfl | hl
        · exact ascii_cons.2 ⟨h1, ih l' (by simp)⟩
        · exact ih l (by simp [hl])

theorem ascii_sub {s t : Bytes} (h : ascii s = true) (hs : ∀ c ∈ t, c ∈ s) : ascii t = true := by
  simp only [ascii, List.all_eq_true] at *
  exact fun c hc => h c (hs c hc)

theorem ascii_dropLast {s : Bytes} (h : ascii s = true) : ascii s.dropLast = true := ascii_sub h fun _ h => (List.dropLast_sublist s).mem h

/-! ## lhs -/

theorem call_get_string {src : Bytes} (hs : ascii src = true) (nd : Node Dsl) {m : Nat} (hm : 1 ≤ m) :
    (callN (World.gen ord) m Ast.Node.get_string [encNode nd, .str src]).Sim (Source.strSlice src nd.start nd.stop) fun t => .ok (.str t) [encNode nd, .str src] := by
  rw [callN_succ rfl rfl (by omega)]
  have hsl := slice_ascii hs nd.start nd.stop false false
  cases ho : Source.strSlice src nd.start nd.stop with
  | oof => trivial
  | panic q =>
    rw [ho] at hsl
    simp only at hsl
    rs [Ast.Node.get_string, fieldVal_start, fieldVal_stop, cast_usize, hsl]
    rfl
  | ok t =>
    rw [ho] at hsl
    simp only at hsl
    rs [Ast.Node.get_string, fieldVal_start, fieldVal_stop, cast_usize, hsl, to_string_lib]
    rfl

theorem call_lhs (hi : Input e) (i : Nat) {m : Nat} (hm : 3 ≤ m) :
    (callN (World.gen ord) m Ast.GeneratedCode.lhs [S, encTree e.tree, .str e.src, encKey i]).Sim (lhs e i)
      fun s => .ok (.str s) [S, encTree e.tree, .str e.src, encKey i] := by
  rw [callN_succ rfl rfl (by omega), lhs]
  rcases getNode_cases e.tree i with ⟨nd, h, hmem⟩ | ⟨q, h⟩
  · rw [h]
    simp only [Out.bind_ok]
    cases hk : nd.children[0]? with
    | none =>
      simp only [Out.ofOption]
      rs [Ast.GeneratedCode.lhs, callMeth_pub, call_get_node ord h, callMeth_node, call_get_children, index_children_none hk]
      rfl
    | some c =>
      simp only [Out.ofOption, Out.bind_ok]
      rcases getNode_cases e.tree c with ⟨cd, h', hmem'⟩ | ⟨q, h'⟩
      · rw [h']
        simp only [Out.bind_ok]
        have hc := fun {m : Nat} (hm : 1 ≤ m) => call_get_string ord hi.ascii cd hm
        cases ho : Source.strSlice e.src cd.start cd.stop with
        | oof => trivial
        | panic q =>
          have hc := fun {m : Nat} (hm : 1 ≤ m) => CRes.Sim.of_panic (hc hm) ho
          rs [Ast.GeneratedCode.lhs, callMeth_pub, call_get_node ord h, callMeth_node, call_get_children, index_children hk, call_get_node ord h', hc]
          rfl
        | ok t =>
          have hc := fun {m : Nat} (hm : 1 ≤ m) => CRes.Sim.of_ok (hc hm) ho
          have ht := strSlice_ascii hi.ascii ho
          obtain ⟨v, hv⟩ := pop_lib ht
          cases hd : t.dropLast with
          | nil =>
            rw [hd] at hv
            rs [Ast.GeneratedCode.lhs, callMeth_pub, call_get_node ord h, callMeth_node, call_get_children, index_children hk, call_get_node ord h', hc, hv, empty_lib, List.isEmpty_nil, Bool.not_true]
            rw [Out.bind_ok, hd]
            rfl
          | cons x xs =>
            rw [hd] at hv
            have hx : ascii (x :: xs) = true := hd ▸ ascii_dropLast ht
            rs [Ast.GeneratedCode.lhs, callMeth_pub, call_get_node ord h, callMeth_node, call_get_children, index_children hk, call_get_node ord h', hc, hv, empty_lib, List.isEmpty_cons, Bool.not_false, remove_lib hx]
            rw [Out.bind_ok, hd]
            rfl
      · rw [h']
        rs [Ast.GeneratedCode.lhs, callMeth_pub, call_get_node ord h, callMeth_node, call_get_children, index_children hk, call_get_node_panic ord h']
        rfl
  · rw [h]
    rs [Ast.GeneratedCode.lhs, callMeth_pub, call_get_node_panic ord h]
    rfl

/-! ## comment -/

/-- The text of comment lines -/
def commentText (ls : List Bytes) : Bytes := (ls.map fun l => utf8Of "\t// " ++ l ++ utf8Of "\n").flatten

theorem call_comment (hi : Input e) (i : Nat) {m : Nat} (hm : 3 ≤ m) :
    (callN (World.gen ord) m Ast.GeneratedCode.comment [S, encTree e.tree, .str e.src, encKey i]).Sim (comment e i)
      fun ls => .ok (.str (commentText ls)) [S, encTree e.tree, .str e.src, encKey i] := by
  rw [callN_succ rfl rfl (by omega), comment]
  rcases getNode_cases e.tree i with ⟨nd, h, hmem⟩ | ⟨q, h⟩
  · rw [h]
    simp only [Out.bind_ok]
    rs [Ast.GeneratedCode.comment, callMeth_pub, call_get_node ord h, callMeth_node, call_get_children, items]
    generalize hR : forN _ _ _ = R
    generalize hO : (List.foldlM _ _ _ : Out _) = O
    have R : Loop R O (fun _ => True) fun s => [(n!"end", optVal (s.2.map (Val.num true))), (n!"start", optVal (s.1.map (Val.num true))), (n!"comment_node", encNode nd),
        (n!"_symbol_table", S), (n!"tree", encTree e.tree), (n!"source", .str e.src), (n!"index", encKey i)] := by
      rw [← hR, ← hO]
      refine forN_loop rfl trivial fun b _ s _ => ?_
      simp only [inScope]
      obtain ⟨st, sp⟩ := s
      rcases getNode_cases e.tree b with ⟨cd, h, hmem⟩ | ⟨q, h⟩
      · rw [h]
        simp only [Out.bind_ok]
        by_cases hr : cd.rule = .r_ascii
        · rw [if_pos hr]
          refine .ok (v := unit) ?_ trivial
          cases st with
          | none => 
            rs [callMeth_pub, call_get_node ord h, fieldVal_rule, pm_ascii, hr, fieldVal_start, fieldVal_stop, optVal, optLib, Option.isNone_none, Option.isNone_some]
            rfl
          | some st =>
            rs [callMeth_pub, call_get_node ord h, fieldVal_rule, pm_ascii, hr, fieldVal_start, fieldVal_stop, optVal, optLib, Option.isNone_none, Option.isNone_some]
            rfl
        · rw [if_neg hr]
          refine .ok (v := unit) ?_ trivial
          rs [callMeth_pub, call_get_node ord h, fieldVal_rule, pm_ascii, hr]
      · rw [h]
        refine .panic ?_
        rs [callMeth_pub, call_get_node_panic ord h]
    clear hR hO
    cases O with
    | oof => trivial
    | panic q => obtain rfl := R; rfl
    | ok se =>
      obtain ⟨rfl, -⟩ := R
      obtain ⟨st, sp⟩ := se
      simp only [Out.bind_ok]
      cases st with
      | none =>
        rs [optVal, optLib]
        rfl
      | some st =>
        cases sp with
        | none =>
          rs [optVal, optLib, cast_usize]
          rfl
        | some sp =>
          simp only [Out.ofOption, Out.bind_ok]
          have hsl := slice_ascii hi.ascii st sp false false
          cases ho : Source.strSlice e.src st sp with
          | oof => trivial
          | panic q =>
            rw [ho] at hsl
            simp only at hsl
            rs [optVal, optLib, cast_usize, hsl]
            rfl
          | ok t =>
            rw [ho] at hsl
            simp only at hsl
            have ht := strSlice_ascii hi.ascii ho
            rs [optVal, optLib, cast_usize, hsl, split_lines_lib, to_string_lib, items]
            generalize hR : forN _ _ _ = R
            have R : Loop R (.ok (commentText ((splitLines t).map trim))) (fun _ => True) fun s => [(n!"response_str", .str s), (n!"input_strs", .vec ((splitLines t).map .str)), (n!"input_str", .str t),
                (n!"end", .some (.num true sp)), (n!"start", .some (.num true st)), (n!"comment_node", encNode nd),
                (n!"_symbol_table", S), (n!"tree", encTree e.tree), (n!"source", .str e.src), (n!"index", encKey i)] := by
              have hf : ∀ (ls : List Bytes) (a : Bytes), (ls.foldlM (fun a l => .ok (a ++ (utf8Of "\t// " ++ trim l ++ utf8Of "\n"))) a : Out Bytes) = .ok (a ++ commentText (ls.map trim)) := by
                intro ls
                induction ls with
                | nil => intro a; simp [commentText]
                | cons l ls ih =>
                  intro a
                  rw [List.foldlM_cons]
                  simp only [Out.bind_ok, ih]
                  simp [commentText]
              have hf := hf (splitLines t) (utf8Of "")
              rw [show utf8Of "" = [] by decide +kernel, List.nil_append] at hf
              rw [← hR, ← hf]
              refine forN_loop (by rw [show utf8Of "" = [] by decide +kernel]) trivial fun l hl s _ => ?_
              refine .ok (v := unit) ?_ trivial
              simp only [inScope]
              rs [trim_lib (ascii_lines ht l hl), addTo, binop]
              simp
            obtain ⟨rfl, -⟩ := R
            rfl
  · rw [h]
    rs [Ast.GeneratedCode.comment, callMeth_pub, call_get_node_panic ord h]
    rfl

/-! ## rule -/

theorem call_new {m : Nat} (hm : 2 ≤ m) : callN (World.gen ord) m Ast.BinaryTreeWO.new [] = .ok (encOut BTree.new) [] := by
  rw [callN_succ rfl rfl (by omega)]
  have h := fun {m : Nat} (hm : 1 ≤ m) => push_00 ord [] (r := .null) (v := .data n!"Reference" n!"Null" []) rfl hm
  rw [encOut_def] at h
  simp only [List.map_nil] at h
  rs [Ast.BinaryTreeWO.new, h]
  rfl

theorem call_to_string_out {t : BTree} (ht : Fine t) (hl : t.length < 4294967296) {k : Nat} (hk : k < 4294967296) (n : Nat) {m : Nat} (hm : 2 * n + 5 ≤ m) :
    (callN (World.gen ord) m Ast.BinaryTreeWO.to_string [encOut t, encK k]).Sim (t.toLines n k) fun ls => .ok (.vec (ls.map fun l => .str l.text)) [encOut t, encK k] := by
  rw [encOut, wrap_fine ht hl, encK, Nat.mod_eq_of_lt hk]
  have := call_to_string ord ht.ok n k m hm
  unfold ToString at this
  unfold CRes.Sim
  cases ho : t.toLines n k with
  | oof => trivial
  | panic q => rw [ho] at this; exact this
  | ok ls => rw [ho] at this; exact this

def linesText (ls : List Line) : Bytes := (ls.map fun l => utf8Of "\t" ++ l.text ++ utf8Of "\n").flatten

def optStr : Option Bytes → Val
  | none => .none
  | some s => .some (.str s)

theorem utf8_nil : utf8Of "" = [] := by decide +kernel

theorem lines_fold (ls : List Line) (a : Bytes) :
    (ls.foldlM (fun a l => .ok (a ++ (utf8Of "\t" ++ l.text ++ utf8Of "\n"))) a : Out Bytes) = .ok (a ++ linesText ls) := by
  induction ls generalizing a with
  | nil => simp [linesText]
  | cons l ls ih =>
    rw [List.foldlM_cons]
    simp only [Out.bind_ok, ih]
    simp [linesText]

variable (e) in
def ruleStep (fuel : Nat) (r : RuleAcc) (i : Nat) : Out RuleAcc := do
    let nd ← e.tree.getNode i
    if nd.rule = .r_lhs then do
      let name ← lhs e i
      .ok { r with name := some (lower name) }
    else if nd.rule = .r_rhs then do
      let (k, t, hooks) ← expr e fuel .rhs (BTree.new, r.hooks) i
      let (last, t) := t.push .exec (some k) none
      let ls ← t.toLines fuel last
      .ok { r with lines := ls, hooks := hooks }
    else if nd.rule = .r_comment then do
      let c ← comment e i
      .ok { r with comment := some c }
    else .ok r

theorem rule_eq (fuel : Nat) (hooks : List Bytes) (i : Nat) : rule e fuel hooks i = (do
    let node ← e.tree.getNode i
    let r ← node.children.foldlM (ruleStep e fuel) ⟨none, [], none, hooks⟩
    let name ← Out.ofOption .expectFailed r.name
    .ok (⟨name, r.comment, r.lines⟩, r.hooks)) := rfl

theorem lhs_ascii (hi : Input e) {i : Nat} {s : Bytes} (h : lhs e i = .ok s) : ascii s = true := by
  rw [lhs] at h
  obtain ⟨nd, -, h⟩ := bind_ok_cases h
  obtain ⟨k, -, h⟩ := bind_ok_cases h
  obtain ⟨d, -, h⟩ := bind_ok_cases h
  obtain ⟨t, ht, h⟩ := bind_ok_cases h
  cases h
  exact ascii_sub (strSlice_ascii hi.ascii ht) fun c hc => (List.dropLast_sublist t).mem (List.mem_of_mem_drop hc)

theorem call_rule {B : Nat} (hs : Given ord e L B) (n : Nat) (hooks : List Bytes) {root : Node Dsl} (h0 : e.tree.getNode 0 = .ok root) {i : Nat} (hi : i ∈ root.children) {m : Nat} (hm : 2 * n + 8 ≤ m) :
    (callN (World.gen ord) m Ast.GeneratedCode.rule [.vec (hooks.map .str), L, encSym e.src e.sym, encTree e.tree, .str e.src, encKey i]).Sim (rule e n hooks i)
      fun r => .ok (.str r.1.text) [.vec (r.2.map .str), L, encSym e.src e.sym, encTree e.tree, .str e.src, encKey i] := by
  rw [callN_succ rfl rfl (by omega), rule_eq]
  rcases getNode_cases e.tree i with ⟨nd, h, hmem⟩ | ⟨q, h⟩
  · have hn := h
    rw [h]
    simp only [Out.bind_ok]
    rs [Ast.GeneratedCode.rule, callMeth_pub, call_get_node ord h, callMeth_node, call_get_children, items, to_string_lib]
    generalize hR : forN _ _ _ = R
    generalize hO : (List.foldlM _ _ _ : Out _) = O
    have R : Loop R O (fun _ => True) fun r => [(n!"comment", optStr (r.comment.map commentText)), (n!"rhs", .str (linesText r.lines)), (n!"name", optStr r.name),
        (n!"rule_children", .vec (nd.children.map encKey)), (n!"rule_node", encNode nd), (n!"hooked_call_imports_required", .vec (r.hooks.map .str)),
        (n!"left_recursive_rules", L), (n!"symbol_table", encSym e.src e.sym), (n!"tree", encTree e.tree), (n!"source", .str e.src), (n!"index", encKey i)] := by
      rw [← hR, ← hO]
      refine forN_loop (by rw [utf8_nil]; rfl) trivial fun b hb s _ => ?_
      rw [ruleStep]
      simp only [inScope]
      rcases getNode_cases e.tree b with ⟨cd, h, hmem⟩ | ⟨q, h⟩
      · rw [h]
        simp only [Out.bind_ok]
        by_cases h1 : cd.rule = .r_lhs
        · rw [if_pos h1]
          cases ho : lhs e b with
          | oof => trivial
          | panic q =>
            have hc := fun {m : Nat} (hm : 3 ≤ m) => CRes.Sim.of_panic (call_lhs ord (encSym e.src e.sym) hs.input b hm) ho
            refine .panic ?_
            rs [callMeth_pub, call_get_node ord h, fieldVal_rule, pm_lhs, h1, hc]
          | ok t =>
            have hc := fun {m : Nat} (hm : 3 ≤ m) => CRes.Sim.of_ok (call_lhs ord (encSym e.src e.sym) hs.input b hm) ho
            refine .ok (v := unit) ?_ trivial
            rs [callMeth_pub, call_get_node ord h, fieldVal_rule, pm_lhs, h1, hc, optLib, lower_lib (lhs_ascii hs.input ho)]
            rfl
        · rw [if_neg h1]
          by_cases h2 : cd.rule = .r_rhs
          · rw [if_pos h2]
            have hx := call_expr ord L hs.input hs.fits hs.perm hs.sets n .rhs
            cases ho : expr e n .rhs (BTree.new, s.hooks) b with
            | oof => trivial
            | panic q =>
              have hc := fun {m : Nat} (hm : n + 4 ≤ m) => Does.panic hx ho hm
              simp only [exprFn] at hc
              refine .panic ?_
              rs [callMeth_pub, call_get_node ord h, fieldVal_rule, pm_lhs, pm_rhs, h1, h2, call_new, hc]
            | ok r =>
              have hc := fun {m : Nat} (hm : n + 4 ≤ m) => Does.ok hx ho hm
              simp only [exprFn] at hc
              obtain ⟨k, t, hk⟩ := r
              simp only [Out.bind_ok]
              have hkn := keeps_expr hs.input hs.sets hs.strings n .rhs b _ _ Fine.new ho
              have hz := hs.sized _ h0 _ hi _ hn _ hb _ h h2 _ _ _ _ _ ho
              have hp := next_push (a := (t, hk)) hkn.1 (r := .exec) (l := some k) (l' := none) trivial (by simpa using hkn.2.1) (by simp) hk
              have hto := fun {m : Nat} (hm : 2 * n + 5 ≤ m) => call_to_string_out ord (t := t ++ [⟨.exec, some k, none⟩]) hp.1 (by simpa using hz) (k := t.length) (by omega) n hm
              cases hl : BTree.toLines (t ++ [⟨.exec, some k, none⟩]) n t.length with
              | oof => simp only [BTree.push, hl]; trivial
              | panic q =>
                have hto := fun {m : Nat} (hm : 2 * n + 5 ≤ m) => CRes.Sim.of_panic (hto hm) hl
                simp only [BTree.push, hl]
                refine .panic ?_
                rs [callMeth_pub, call_get_node ord h, fieldVal_rule, pm_lhs, pm_rhs, h1, h2, call_new, hc, callMeth_out, push_exec ord, to_string_lib, hto]
              | ok ls =>
                have hto := fun {m : Nat} (hm : 2 * n + 5 ≤ m) => CRes.Sim.of_ok (hto hm) hl
                simp only [BTree.push, hl]
                refine .ok (v := unit) ?_ trivial
                rs [callMeth_pub, call_get_node ord h, fieldVal_rule, pm_lhs, pm_rhs, h1, h2, call_new, hc, callMeth_out, push_exec ord, to_string_lib, hto, items]
                generalize hR' : forN _ _ _ = R'
                have R' : Loop R' (.ok (linesText ls)) (fun _ => True) fun x => (n!"result", .str x) :: (n!"last_key", encK t.length) :: (n!"rhs_key", encK k) ::
                    (n!"out_tree", encOut (t ++ [⟨.exec, some k, none⟩])) :: (n!"i", encKey b) :: [(n!"comment", optStr (s.comment.map commentText)), (n!"rhs", .str (linesText s.lines)), (n!"name", optStr s.name),
        (n!"rule_children", .vec (nd.children.map encKey)), (n!"rule_node", encNode nd), (n!"hooked_call_imports_required", .vec (hk.map .str)),
        (n!"left_recursive_rules", L), (n!"symbol_table", encSym e.src e.sym), (n!"tree", encTree e.tree), (n!"source", .str e.src), (n!"index", encKey i)] := by
                  have hf := lines_fold ls (utf8Of "")
                  rw [utf8_nil, List.nil_append] at hf
                  rw [← hR', ← hf]
                  refine forN_loop (by rw [utf8_nil]) trivial fun l _ x _ => ?_
                  refine .ok (v := unit) ?_ trivial
                  simp only [inScope]
                  rs [push_tab_lib, push_str_lib, push_nl_lib]
                  simp
                clear hR'
                obtain ⟨rfl, -⟩ := R'
                rs []
          · rw [if_neg h2]
            by_cases h3 : cd.rule = .r_comment
            · rw [if_pos h3]
              cases ho : comment e b with
              | oof => trivial
              | panic q =>
                have hc := fun {m : Nat} (hm : 3 ≤ m) => CRes.Sim.of_panic (call_comment ord (encSym e.src e.sym) hs.input b hm) ho
                refine .panic ?_
                rs [callMeth_pub, call_get_node ord h, fieldVal_rule, pm_lhs, pm_rhs, pm_comment, h1, h2, h3, hc]
              | ok t =>
                have hc := fun {m : Nat} (hm : 3 ≤ m) => CRes.Sim.of_ok (call_comment ord (encSym e.src e.sym) hs.input b hm) ho
                refine .ok (v := unit) ?_ trivial
                rs [callMeth_pub, call_get_node ord h, fieldVal_rule, pm_lhs, pm_rhs, pm_comment, h1, h2, h3, hc]
                rfl
            · rw [if_neg h3]
              refine .ok (v := unit) ?_ trivial
              rs [callMeth_pub, call_get_node ord h, fieldVal_rule, pm_lhs, pm_rhs, pm_comment, h1, h2, h3]
      · rw [h]
        refine .panic ?_
        rs [callMeth_pub, call_get_node_panic ord h]
    clear hR hO
    cases O with
    | oof => trivial
    | panic q => obtain rfl := R; rfl
    | ok r =>
      obtain ⟨rfl, -⟩ := R
      obtain ⟨nm, ls, cm, hk⟩ := r
      simp only [Out.bind_ok]
      cases nm with
      | none =>
        rs [optStr, optLib]
        rfl
      | some nm =>
        cases cm with
        | none =>
          rs [optStr, optLib, render, disp, to_string_lib, Option.getD_none]
          simp only [Out.ofOption, Out.bind_ok]
          simp [CRes.Sim, RuleCode.text, linesText, utf8_nil]
        | some cm =>
          rs [optStr, optLib, render, disp, to_string_lib, Option.getD_some]
          simp only [Out.ofOption, Out.bind_ok]
          simp [CRes.Sim, RuleCode.text, linesText, utf8_nil, commentText]
  · rw [h]
    rs [Ast.GeneratedCode.rule, callMeth_pub, call_get_node_panic ord h]
    rfl

end PP.Rs
