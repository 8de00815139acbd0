import Verif.Lemmas.Mini.Calc
import Verif.Model.Calc.Maths

/-! # The evaluators of examples 3 and 4: the functions they share -/
namespace PP.Mini
open PP.Gen
attribute [local congr] Res.bind_congr loopN_congr forN_congr

theorem tdiv_in {a b : Int} (ha : InI64 a) (hb : b ≠ 0) (h : ¬ (a = -9223372036854775808 ∧ b = -1)) : InI64 (a.tdiv b) := by
  unfold InI64 at *
  have h1 : (a.tdiv b).natAbs = a.natAbs / b.natAbs := Int.natAbs_tdiv a b
  have h2 : a.natAbs / b.natAbs ≤ a.natAbs := Nat.div_le_self ..
  by_cases h3 : b.natAbs = 1
  · rcases Int.natAbs_eq b with e | e
    · have : b = 1 := by omega
      subst this; rw [Int.tdiv_one]; exact ha
    · have : b = -1 := by omega
      subst this
      have : a.natAbs / 1 = a.natAbs := Nat.div_one _
      simp only [Int.tdiv_neg, Int.tdiv_one]
      omega
  · have h4 : a.natAbs / b.natAbs ≤ a.natAbs / 2 := Nat.div_le_div_left (by omega) (by omega)
    omega

theorem i64_in {x : Int} (hx : InI64 x) (h : Heap) : i64 x h = .ok (.i64 x) h := if_pos hx
theorem i64_out {x : Int} (hx : ¬ InI64 x) (h : Heap) : i64 x h = .panic := if_neg hx

theorem parse_in {s : Bytes} {x : Int} (h : parseI64 s = some x) : InI64 x := by
  unfold parseI64 at h
  simp only at h
  generalize (if s.head? = some 43 ∨ s.head? = some 45 then s.tail else s) = ds at h
  by_cases hc : ds ≠ [] ∧ ds.all (fun c => 48 ≤ c.toNat ∧ c.toNat ≤ 57) = true
  · rw [if_pos hc] at h
    generalize (if s.head? = some 45 then -(decimal ds : Int) else decimal ds) = y at h
    by_cases hy : InI64 y
    · rw [if_pos hy] at h; injection h with h; subst h; exact hy
    · rw [if_neg hy] at h; cases h
  · rw [if_neg hc] at h; cases h

section
variable {R U : Type} [DecidableEq R] {W : World R U}

theorem rule_eq {r s : R} {v : Name} (hv : W.vn s = v) (h : Heap) :
    binop .eq (encRule W.vn r) (.variant n!"Rules" v) h = .ok (.bool (decide (r = s))) h := by
  have : (W.vn r = v) ↔ r = s := by rw [← hv]; exact ⟨W.inj _ _, congrArg _⟩
  simp only [binop, valEq, atomEq, encRule, true_and, this]

/-- What is said of the result of an evaluation. -/
def IntRes (h : Heap) (v : Val) (h' : Heap) (x : Int) : Prop := v = .i64 x ∧ InI64 x ∧ Keeps h h'

theorem children_sim (W : World R U) {d : Dir} {n : Nat} (hf : Fuel d n 1) (nd : Node R) (h : Heap) :
    Sim d (fun v h' (_ : Unit) => v = .vec (nd.children.map encKey) ∧ h' = h)
      (run W.Q n (.fn (some n!"Node") n!"get_children") [encNode W.vn nd] h) (.ok ()) :=
  Sim.fuel hf fun m => by rw [get_children_run]; exact .ok ⟨rfl, rfl⟩

theorem element_key (l : List Nat) (i : Nat) (h : Heap) : element (.int i) (.vec (l.map encKey)) h =
    match l[i]? with
    | some k => .ok (encKey k) h
    | none => .panic := by
  simp only [element, follow_vec, loadV, List.getElem?_map]
  cases l[i]? <;> rfl

/-- An element of the children is read, and its node. -/
theorem child_sim {d : Dir} {n : Nat} (hf : Fuel d n 2) (t : Publisher R) (l : List Nat) (i : Nat) {env : Env} {y z : Name}
    (hz : env.lookup z = some (.val (encPub W.vn t))) (hy : env.lookup y = some (.val (.vec (l.map encKey)))) (h : Heap) :
    Sim d (fun v h' nd => v = encNode W.vn nd ∧ h' = h ∧ nd ∈ t.nodes)
      (ev W.Q (run W.Q n) n false (.meth (.path [z]) n!"get_node" (.cons (.index (.path [y]) (.int i)) .nil)) env h)
      (do let k ← Out.ofOption .indexOutOfBounds l[i]?; t.getNode k) := by
  simp only [ev, evs, hz, hy, Res.bind_ok, element_key, Bool.false_eq_true, if_false]
  cases l[i]? with
  | none => exact .panic
  | some k =>
    simp only [Res.bind_ok, load_key, call_pub W t _ _ _ _ W.core.f_BasicPublisher_get_node rfl]
    exact get_node_sim W hf t k h

theorem len_keys {Q : Prog} {c : Call} {l : List Nat} {h : Heap} :
    callMethod Q c n!"len" (.vec (l.map encKey)) [] h = .ok (.int l.length) h := by
  rw [callMethod_vec]; simp only [m_vec_len, List.length_map]

/-- `debug_assert!` of a condition. -/
theorem assert_sim {Q : Prog} {c : Call} {n : Nat} {d : Dir} {e : Ex} {es : Exs} {env : Env} {h : Heap} {b : Bool}
    (he : Sim d (fun v h' (_ : Unit) => v = .bool b ∧ h' = h) (ev Q c n false e env h) (.ok ())) :
    Sim d (fun _ h' _ => h' = h) (ev Q c n false (.mac n!"debug_assert" (.cons e es)) env h) (debugAssert true b) := by
  simp only [ev, if_true]
  rw [show debugAssert true b = (Out.ok () >>= fun _ => debugAssert true b) from rfl]
  refine Sim.bind he ?_
  rintro _ h ⟨⟩ ⟨rfl, rfl⟩
  cases b
  · exact .panic
  · exact .ok rfl
theorem assert_ok {Q : Prog} {c : Call} {n : Nat} {d : Dir} {e : Ex} {es : Exs} {env : Env} {h : Heap} {b : Bool}
    (he : ev Q c n false e env h = .ok (.bool b) h) :
    Sim d (fun _ h' _ => h' = h) (ev Q c n false (.mac n!"debug_assert" (.cons e es)) env h) (debugAssert true b) :=
  assert_sim (he ▸ .ok ⟨rfl, rfl⟩)

theorem out_unit {α : Type} (o : Out α) : o = (Out.ok () >>= fun _ => o) := rfl

theorem out_ite {α : Type} {c : Prop} [Decidable c] {p : Panic} {o : Out α} :
    (if c then Out.panic p else o) = ((if c then Out.panic p else Out.ok ()) >>= fun _ => o) := by
  split <;> rfl

theorem number_sim {number integer : R} (hq : W.Q.fn? none n!"evaluate_number" = some Ast.Calc3.evaluate_number)
    (hn : W.vn number = n!"Number") (hi : W.vn integer = n!"Integer") (vn : W.Q.isVariant n!"Rules" n!"Number" = true)
    (vi : W.Q.isVariant n!"Rules" n!"Integer" = true) {d : Dir} {n : Nat} (hf : Fuel d n 2) (t : Publisher R) (src : Bytes) (nd : Node R) (h : Heap) :
    Sim d (IntRes h) (run W.Q (n + 1) (.fn none n!"evaluate_number") [encPub W.vn t, .str src, encNode W.vn nd] h)
      (mathsNumber number integer true t src nd) := by
  rw [run]
  simp only [hq, Ast.Calc3.evaluate_number]
  simp only [bindAll, reduceIte]
  unfold mathsNumber
  rw [show ∀ (P : Prog) (c : Call) (n : Nat) (pl : Bool) (B : Blk) (env : Env) (h : Heap), ev P c n pl (.block B) env h = evBlk P c n B env h from
    fun P c n pl B env h => by simp only [ev], evBlk_expr]
  refine Sim.result (K := fun _ h' _ => h' = h) (assert_ok ?_) ?_
  · mini [nd_rule, load_rule, global, vn, rule_eq hn]
  rintro _ h ⟨⟩ rfl
  have hfc : Fuel d n 1 := fun e => Nat.le_trans (by decide) (hf e)
  rw [evBlk_expr]
  refine Sim.result (K := fun _ h' _ => h' = h) (assert_sim ?_) ?_
  · mini [call_node W nd _ _ _ _ W.core.f_Node_get_children rfl]
    rw [out_unit (Out.ok ())]
    refine Sim.bind (children_sim W hfc nd h) ?_
    rintro _ h ⟨⟩ ⟨rfl, rfl⟩
    rw [callMethod_vec, m_is_empty, Res.bind_ok]
    exact .ok ⟨by simp, rfl⟩
  rintro _ h ⟨⟩ rfl
  rw [evBlk_let]
  refine Sim.result (y := Out.ok ()) (K := fun v h' _ => v = .vec (nd.children.map encKey) ∧ h' = h) ?_ ?_
    (g := fun _ => if 1 < nd.children.length then Out.panic .explicit else _)
  · mini [call_node W nd _ _ _ _ W.core.f_Node_get_children rfl]
    exact children_sim W hfc nd h
  rintro _ h ⟨⟩ ⟨rfl, rfl⟩
  rw [evBlk_expr]
  rw [out_ite]
  refine Sim.result (K := fun _ h' _ => h' = h) ?_ ?_
  · by_cases hl : 1 < nd.children.length
    · mini [callMethod_vec, List.length_map, binop, hl, decide_true, or_true, true_or]
      exact .panic
    · mini [callMethod_vec, List.length_map, binop, hl, decide_false, or_true, true_or]
      exact .ok rfl
  rintro _ h ⟨⟩ rfl
  rw [evBlk_let, ← out_assoc]
  refine Sim.result (K := fun v h' nd => v = encNode W.vn nd ∧ h' = h ∧ nd ∈ t.nodes) (child_sim hf t nd.children 0 rfl rfl h) ?_
  rintro _ h nd ⟨rfl, rfl, -⟩
  rw [evBlk_expr]
  refine Sim.result (K := fun _ h' _ => h' = h) (assert_ok ?_) ?_
  · mini [nd_rule, load_rule, global, vi, rule_eq hi]
  rintro _ h ⟨⟩ rfl
  rw [evBlk_let]
  refine Sim.result (K := fun v h' l => v = .str l ∧ h' = h) ?_ ?_
  · mini [call_node W nd _ _ _ _ W.core.f_Node_get_string rfl]
    exact node_string_sim W hfc nd src h
  rintro _ h s ⟨rfl, rfl⟩
  mini [m_parse, true_or]
  cases hp : parseI64 s with
  | none => mini [Out.ofOption]; exact .panic
  | some x => mini [Out.ofOption, true_or]; exact .ok ⟨rfl, parse_in hp, Keeps.rfl'⟩

/-- Both operands are evaluated. -/
theorem maths_binary_sim (hq : W.Q.fn? none n!"evaluate_binary_node" = some Ast.Calc3.evaluate_binary_node)
    (hnt : W.Q.isTuple n!"evaluate_tree_kernel" = false) {d : Dir} {n : Nat} (hf : Fuel d n 2) (t : Publisher R) (src : Bytes) {rec : Node R → Out Int}
    (hrec : ∀ nd h, Sim d (IntRes h) (run W.Q n (.fn none n!"evaluate_tree_kernel") [encPub W.vn t, .str src, encNode W.vn nd] h) (rec nd))
    (nd : Node R) (h : Heap) :
    Sim d (fun v h' x => v = .tuple [.i64 x.1, .i64 x.2] ∧ InI64 x.1 ∧ InI64 x.2 ∧ Keeps h h')
      (run W.Q (n + 1) (.fn none n!"evaluate_binary_node") [encPub W.vn t, .str src, encNode W.vn nd] h) (mathsBinary true t rec nd) := by
  rw [run]
  simp only [hq, Ast.Calc3.evaluate_binary_node]
  simp only [bindAll, reduceIte]
  rw [ev_let_block]
  unfold mathsBinary
  have e : ∀ {α : Type} (o : Out α), o = (Out.ok () >>= fun _ => o) := fun o => rfl
  rw [e (debugAssert true _ >>= _)]
  refine Sim.result (K := fun v h' _ => v = .vec (nd.children.map encKey) ∧ h' = h) ?_ ?_
  · mini [call_node W nd _ _ _ _ W.core.f_Node_get_children rfl]
    exact children_sim W (fun e => Nat.le_trans (by decide) (hf e)) nd h
  rintro _ h ⟨⟩ ⟨rfl, rfl⟩
  rw [evBlk_expr]
  refine Sim.result (K := fun _ h' _ => h' = h) (assert_ok ?_) ?_
  · mini [List.length_map, binop, valEq, atomEq]
  rintro _ h ⟨⟩ rfl
  rw [evBlk_let, ← out_assoc]
  refine Sim.result (K := fun v h' nd => v = encNode W.vn nd ∧ h' = h ∧ nd ∈ t.nodes) (child_sim hf t nd.children 0 rfl rfl h) ?_
  rintro _ h lhs ⟨rfl, rfl, -⟩
  rw [evBlk_let]
  refine Sim.result (K := IntRes h) ?_ ?_
  · mini [hnt]
    exact hrec lhs h
  rintro _ h₁ a ⟨rfl, ha, hk₁⟩
  rw [evBlk_let, ← out_assoc]
  refine Sim.result (K := fun v h' nd => v = encNode W.vn nd ∧ h' = h₁ ∧ nd ∈ t.nodes) (child_sim hf t nd.children 1 rfl rfl h₁) ?_
  rintro _ h₁ rhs ⟨rfl, rfl, -⟩
  rw [evBlk_let]
  refine Sim.result (K := IntRes h₁) ?_ ?_
  · mini [hnt]
    exact hrec rhs h₁
  rintro _ h₂ b ⟨rfl, hb, hk₂⟩
  mini
  exact .ok ⟨rfl, ha, hb, hk₁.trans hk₂⟩

theorem ev_none {Q : Prog} {c : Call} {n : Nat} {env : Env} {h : Heap} (e : env.lookup n!"None" = none) :
    ev Q c n false (.path [n!"None"]) env h = .ok .none h := by
  simp only [ev, e, global, if_true]

/-- `Option<i64>` -/
def encOpt : Option Int → Val
  | none => .none
  | some x => .some (.i64 x)

/-- The variable after the heap `h` has the value. -/
def OptIs (h : Heap) (b : Option Int) (h' : Heap) : Prop := h'[h.length]? = some (encOpt b) ∧ Keeps h h' ∧ ∀ x, b = some x → InI64 x

theorem OptIs.set {h h₂ h₃ : Heap} {b : Option Int} {x : Int} (hi : h₂[h.length]? = some (encOpt b)) (hk : Keeps h h₂) (hk₃ : Keeps h₂ h₃) (hx : InI64 x) :
    OptIs h (some x) (h₃.set h.length (.some (.i64 x))) := by
  have hlt : h.length < h₂.length := (List.getElem?_eq_some_iff.mp hi).1
  refine ⟨?_, (hk.trans hk₃).set (Nat.le_refl _) _, fun y e => by injection e with e; subst e; exact hx⟩
  rw [List.getElem?_set_self (Nat.lt_of_lt_of_le hlt hk₃.le)]; rfl

/-- The value is stored in the variable. -/
theorem opt_store {h h₂ h₃ : Heap} {b : Option Int} {v : Val} (hi : h₂[h.length]? = some (encOpt b)) (hk₃ : Keeps h₂ h₃) :
    store h.length [] v h₃ = .ok .unit (h₃.set h.length v) :=
  store_loc ((hk₃.eq _ (List.getElem?_eq_some_iff.mp hi).1).trans hi)

theorem opt_tail {d : Dir} {h h₂ : Heap} {b : Option Int} {r : Res Val} {o : Out Int} (hi : h₂[h.length]? = some (encOpt b)) (hk : Keeps h h₂)
    (hs : Sim d (IntRes h₂) r o) :
    Sim d (fun _ h' b' => OptIs h b' h') (r.bind fun v h₃ => store h.length [] (.some v) h₃) (o >>= fun x => .ok (some x)) := by
  refine Sim.bind hs ?_
  rintro _ h₃ x ⟨rfl, hx, hk₃⟩
  rw [opt_store hi hk₃]
  exact .ok (.set hi hk hk₃ hx)

theorem opt_tail_let {d : Dir} {h h₂ : Heap} {b : Option Int} {r : Res Val} {o : Out Int} (hi : h₂[h.length]? = some (encOpt b)) (hk : Keeps h h₂)
    (hs : Sim d (IntRes (h₂ ++ [.uninit])) r o) :
    Sim d (fun _ h' b' => OptIs h b' h') (r.bind fun a h₃ => (store h₂.length [] a h₃).bind fun _ h₃ =>
      (load (.ref h₂.length []) h₃).bind fun a h₃ => (store h.length [] a.some h₃).bind fun _ h => .ok Val.unit h) (o >>= fun x => .ok (some x)) := by
  refine Sim.bind hs ?_
  rintro _ h₃ x ⟨rfl, hx, hk₃⟩
  have hlt₃ : h₂.length < h₃.length := by have := hk₃.le; simp at this; omega
  have e1 : (h₃.set h₂.length (.i64 x))[h₂.length]? = some (.i64 x) := by rw [List.getElem?_set_self hlt₃]
  have hk₄ := hk₃.unpush.set (Nat.le_refl _) (.i64 x)
  rw [store_loc hk₃.last, Res.bind_ok, load_loc e1, Res.bind_ok, opt_store hi hk₄, Res.bind_ok]
  exact .ok (.set hi hk hk₄ hx)
end
end PP.Mini
