import Verif.Lemmas.Rs.Tree

/-! # Executions that follow the model; loops; the functions of publisher.rs that the generator uses -/
namespace PP.Rs
open PP.Gen

/-- The call does what the model does: `f` says how a value of the model looks. -/
def CRes.Sim {α : Type} (r : CRes) (o : Out α) (f : α → CRes) : Prop :=
  match o with
  | .ok a => r = f a
  | .panic _ => r = .panic
  | .oof => True

/-- The same for an expression. -/
def Res.Sim {α : Type} (r : Res) (o : Out α) (f : α → Res) : Prop :=
  match o with
  | .ok a => r = f a
  | .panic _ => r = .panic
  | .oof => True

/-- A round of a loop. -/
def Res.Round {α : Type} (r : Res) (o : Out α) (P : α → Prop) (E : α → Env) : Prop :=
  match o with
  | .ok a => (∃ v, r = .ok v (E a)) ∧ P a
  | .panic _ => r = .panic
  | .oof => True

theorem Res.Sim.ok {α : Type} {a : α} {r f} (h : r = f a) : Res.Sim r (.ok a) f := h
theorem Res.Round.ok {α : Type} {a : α} {r E} {P : α → Prop} {v} (h : r = .ok v (E a)) (hp : P a) : Res.Round r (.ok a) P E := ⟨⟨v, h⟩, hp⟩
theorem Res.Round.panic {α : Type} {r p} {E : α → Env} {P : α → Prop} (h : r = .panic) : Res.Round r (.panic p) P E := h

/-- `for` -/
theorem forN_sim {σ β : Type} {F : Val → Env → Res} {e : β → Val} {E : σ → Env} {step : σ → β → Out σ} {P : σ → Prop} {xs : List β} {s : σ} (hP : P s)
    (h : ∀ b ∈ xs, ∀ s, P s → (F (e b) (E s)).Round (step s b) P E) :
    (forN F (xs.map e) (E s)).Round (xs.foldlM step s) P E ∧ (∀ s', xs.foldlM step s = .ok s' → forN F (xs.map e) (E s) = .ok unit (E s')) := by
  induction xs generalizing s with
  | nil =>
    refine ⟨⟨⟨unit, rfl⟩, hP⟩, ?_⟩
    intro s' hs
    cases hs
    rfl
  | cons b xs ih =>
    have hb := h b (by simp) s hP
    rw [List.map_cons, forN, List.foldlM_cons]
    cases ho : step s b with
    | oof => exact ⟨trivial, by simp⟩
    | panic p =>
      rw [ho] at hb
      have hb : F (e b) (E s) = .panic := hb
      rw [hb]
      exact ⟨rfl, by simp⟩
    | ok s1 =>
      rw [ho] at hb
      obtain ⟨⟨v, hv⟩, hp⟩ := hb
      rw [hv]
      exact ih hp fun b hb => h b (by simp [hb])

/-- `loop` with a counter that runs over the indices of a list -/
theorem loopN_sim {σ β : Type} {f : Env → Res} {E : Nat → σ → Env} {step : σ → β → Out σ} {P : σ → Prop} {xs : List β} {s : σ} {k : Nat} (hP : P s)
    (hk : xs.length + 1 ≤ k) (hb : ∀ s, f (E xs.length s) = .brk (E xs.length s))
    (h : ∀ c b, xs[c]? = some b → c < xs.length → ∀ s, P s → (f (E c s)).Round (step s b) P (E (c + 1))) :
    (loopN f k (E 0 s)).Round (xs.foldlM step s) P (E xs.length) ∧ (∀ s', xs.foldlM step s = .ok s' → loopN f k (E 0 s) = .ok unit (E xs.length s')) := by
  suffices H : ∀ ys zs : List β, xs = zs ++ ys → ∀ k s, ys.length + 1 ≤ k → P s →
      (loopN f k (E zs.length s)).Round (ys.foldlM step s) P (E xs.length) ∧
      (∀ s', ys.foldlM step s = .ok s' → loopN f k (E zs.length s) = .ok unit (E xs.length s')) from H xs [] rfl k s hk hP
  intro ys
  induction ys with
  | nil =>
    intro zs hx k s hk hP
    obtain ⟨k, rfl⟩ : ∃ m, k = m + 1 := ⟨k - 1, by omega⟩
    have : zs.length = xs.length := by simp [hx]
    rw [loopN, this, hb]
    refine ⟨⟨⟨unit, rfl⟩, hP⟩, ?_⟩
    intro s' hs
    cases hs
    rfl
  | cons b ys ih =>
    intro zs hx k s hk hP
    simp only [List.length_cons] at hk
    obtain ⟨k, rfl⟩ : ∃ m, k = m + 1 := ⟨k - 1, by omega⟩
    have hb := h zs.length b (by rw [hx]; simp) (by rw [hx]; simp) s hP
    rw [loopN, List.foldlM_cons]
    cases ho : step s b with
    | oof => exact ⟨trivial, by simp⟩
    | panic p =>
      rw [ho] at hb
      have hb : f (E zs.length s) = .panic := hb
      rw [hb]
      exact ⟨rfl, by simp⟩
    | ok s1 =>
      rw [ho] at hb
      obtain ⟨⟨v, hv⟩, hp⟩ := hb
      rw [hv]
      have := ih (zs ++ [b]) (by rw [hx]; simp) k s1 (by omega) hp
      simpa using this

/-- The end of a loop. -/
def Loop {σ : Type} (L : Res) (O : Out σ) (P : σ → Prop) (E : σ → Env) : Prop :=
  match O with
  | .ok s => L = .ok unit (E s) ∧ P s
  | .panic _ => L = .panic
  | .oof => True

theorem forN_loop {σ β : Type} {F : Val → Env → Res} {e : β → Val} {E : σ → Env} {step : σ → β → Out σ} {P : σ → Prop} {xs : List β} {s : σ} {env : Env} (he : env = E s) (hP : P s)
    (h : ∀ b ∈ xs, ∀ s, P s → (F (e b) (E s)).Round (step s b) P E) : Loop (forN F (xs.map e) env) (xs.foldlM step s) P E := by
  subst he
  have ⟨h1, h2⟩ := forN_sim hP h
  cases ho : xs.foldlM step s with
  | oof => trivial
  | panic q => rw [ho] at h1; exact h1
  | ok s' => rw [ho] at h1; exact ⟨h2 _ ho, h1.2⟩

theorem loopN_loop {σ β : Type} {f : Env → Res} {E : Nat → σ → Env} {step : σ → β → Out σ} {P : σ → Prop} {xs : List β} {s : σ} {k : Nat} {env : Env} (he : env = E 0 s) (hP : P s)
    (hk : xs.length + 1 ≤ k) (hb : ∀ s, f (E xs.length s) = .brk (E xs.length s))
    (h : ∀ c b, xs[c]? = some b → c < xs.length → ∀ s, P s → (f (E c s)).Round (step s b) P (E (c + 1))) :
    Loop (loopN f k env) (xs.foldlM step s) P (E xs.length) := by
  subst he
  have ⟨h1, h2⟩ := loopN_sim hP hk hb h
  cases ho : xs.foldlM step s with
  | oof => trivial
  | panic q => rw [ho] at h1; exact h1
  | ok s' => rw [ho] at h1; exact ⟨h2 _ ho, h1.2⟩

/-! ## Texts -/

theorem boundary_ascii {s : Bytes} (h : ascii s = true) {i : Nat} (hi : i ≤ s.length) : boundary s i = true ∧ Source.isCharBoundary s i = true := by
  unfold boundary Source.isCharBoundary
  cases hs : s[i]? with
  | none =>
    have := List.getElem?_eq_none_iff.1 hs
    have : i = s.length := by omega
    simp [this]
  | some c =>
    have hc : c < 128 := by
      have := List.all_eq_true.1 h c (List.mem_of_getElem? hs)
      simpa using this
    have hc' : c.toNat < 128 := hc
    simp [hc]
    omega

/-- A slice of an ASCII text. -/
theorem slice_ascii {s : Bytes} (h : ascii s = true) (a b : Nat) (w w') :
    sliceVal (.str s) (.num w a) (.num w' b) = match Source.strSlice s a b with | .ok t => .ok (.str t) .none | _ => .panic := by
  unfold sliceVal Source.strSlice
  by_cases hb : a ≤ b ∧ b ≤ s.length
  · have h1 := boundary_ascii h (i := a) (by omega)
    have h2 := boundary_ascii h (i := b) (by omega)
    simp [hb, h1, h2, List.drop_take]
  · have n1 : ¬ (a ≤ b ∧ b ≤ s.length ∧ boundary s a ∧ boundary s b) := fun h' => hb ⟨h'.1, h'.2.1⟩
    have n2 : ¬ (a ≤ b ∧ b ≤ s.length ∧ Source.isCharBoundary s a ∧ Source.isCharBoundary s b) := fun h' => hb ⟨h'.1, h'.2.1⟩
    simp only [if_neg n1, if_neg n2]

theorem strSlice_ascii {s t : Bytes} (h : ascii s = true) {a b : Nat} (e : Source.strSlice s a b = .ok t) : ascii t = true := by
  unfold Source.strSlice at e
  split at e
  · cases e
    unfold ascii at *
    rw [List.all_eq_true] at *
    exact fun x hx => h x (List.mem_of_mem_drop (List.mem_of_mem_take hx))
  · cases e

theorem to_string_lib (s : Bytes) : strLib n!"to_string" s [] = .ok (.str s) .none := by simp [strLib]

/-! ## Rules -/

theorem encRule_def (r : Dsl) : encRule r = .data n!"Rules" (dslVariant r) [] := rfl

section
variable (r : Dsl)
theorem eq_grammar : binop .eq (encRule r) (.data n!"Rules" n!"Grammar" []) = .ok (.bool (decide (r = .r_grammar))) .none := by cases r <;> rfl
theorem ne_grammar : binop .ne (encRule r) (.data n!"Rules" n!"Grammar" []) = .ok (.bool (decide (r ≠ .r_grammar))) .none := by cases r <;> rfl
theorem eq_decl : binop .eq (encRule r) (.data n!"Rules" n!"Var_Name_Decl" []) = .ok (.bool (decide (r = .r_var_name_decl))) .none := by cases r <;> rfl
theorem eq_sem : binop .eq (encRule r) (.data n!"Rules" n!"Semantic_Instructions" []) = .ok (.bool (decide (r = .r_semantic_instructions))) .none := by cases r <;> rfl
theorem eq_inline : binop .eq (encRule r) (.data n!"Rules" n!"Inline" []) = .ok (.bool (decide (r = .r_inline))) .none := by cases r <;> rfl
end

theorem key_fold (k : Nat) : Val.struct n!"Key" [(0, .num true k)] = encKey k := rfl

/-! ## publisher.rs -/

variable (ord : List Val → List Val)

theorem fieldVal_tree (p : Publisher Dsl) : fieldVal (encTree p) n!"nodes" = .some (.vec (p.nodes.map encNode)) := rfl
theorem callMeth_pub (W C e p m es vs env) : callMeth W C e (encTree p) m es vs env =
    (match W.fn? (.some n!"BasicPublisher") m with | .some f => .ofCall f.muts (.cons e es) env (C.fn f (encTree p :: vs)) | .none => .stuck) := rfl
theorem callMeth_node (W C e p m es vs env) : callMeth W C e (encNode p) m es vs env =
    (match W.fn? (.some n!"Node") m with | .some f => .ofCall f.muts (.cons e es) env (C.fn f (encNode p :: vs)) | .none => .stuck) := rfl
theorem fieldVal_rule (nd : Node Dsl) : fieldVal (encNode nd) n!"rule" = .some (encRule nd.rule) := rfl
theorem fieldVal_start (nd : Node Dsl) : fieldVal (encNode nd) n!"start_position" = .some (.num true nd.start) := rfl
theorem fieldVal_stop (nd : Node Dsl) : fieldVal (encNode nd) n!"end_position" = .some (.num true nd.stop) := rfl
theorem fieldVal_result (nd : Node Dsl) : fieldVal (encNode nd) n!"result" = .some (.bool nd.result) := rfl
theorem fieldVal_children (nd : Node Dsl) : fieldVal (encNode nd) n!"children" = .some (.vec (nd.children.map encKey)) := rfl

theorem index_pub {p : Publisher Dsl} {i nd} (h : p.getNode i = .ok nd) (w) : indexVal (.vec (p.nodes.map encNode)) (.num w i) = .ok (encNode nd) .none := by
  simp only [Publisher.getNode] at h
  cases hp : p.nodes[i]? with
  | none => rw [hp] at h; cases h
  | some x => rw [hp] at h; cases h; simp [indexVal, hp]
theorem index_pub_panic {p : Publisher Dsl} {i q} (h : p.getNode i = .panic q) (w) : indexVal (.vec (p.nodes.map encNode)) (.num w i) = .panic := by
  simp only [Publisher.getNode] at h
  cases hp : p.nodes[i]? with
  | none => simp only [indexVal, List.getElem?_map, hp, Option.map_none]
  | some x => rw [hp] at h; cases h

theorem call_get_node {p : Publisher Dsl} {i nd} (h : p.getNode i = .ok nd) {n : Nat} (hn : 2 ≤ n) :
    callN (World.gen ord) n Ast.BasicPublisher.get_node [encTree p, encKey i] = .ok (encNode nd) [encTree p, encKey i] := by
  rw [callN_succ rfl rfl (by omega)]
  rs [Ast.BasicPublisher.get_node, fieldVal_tree, call_usize_from, index_pub h]

theorem call_get_node_panic {p : Publisher Dsl} {i q} (h : p.getNode i = .panic q) {n : Nat} (hn : 2 ≤ n) :
    callN (World.gen ord) n Ast.BasicPublisher.get_node [encTree p, encKey i] = .panic := by
  rw [callN_succ rfl rfl (by omega)]
  rs [Ast.BasicPublisher.get_node, fieldVal_tree, call_usize_from, index_pub_panic h]

theorem getNode_cases (p : Publisher Dsl) (i : Nat) : (∃ nd, p.getNode i = .ok nd ∧ nd ∈ p.nodes) ∨ ∃ q, p.getNode i = .panic q := by
  simp only [Publisher.getNode]
  cases hp : p.nodes[i]? with
  | none => exact .inr ⟨_, rfl⟩
  | some x => exact .inl ⟨x, rfl, List.mem_of_getElem? hp⟩

theorem call_get_children (nd : Node Dsl) {n : Nat} (hn : 1 ≤ n) :
    callN (World.gen ord) n Ast.Node.get_children [encNode nd] = .ok (.vec (nd.children.map encKey)) [encNode nd] := by
  rw [callN_succ rfl rfl (by omega)]
  rs [Ast.Node.get_children, fieldVal_children]

theorem index_children {ks : List Nat} {c k} (h : ks[c]? = some k) (w) : indexVal (.vec (ks.map encKey)) (.num w c) = .ok (encKey k) .none := by
  simp [indexVal, h]
theorem index_children_none {ks : List Nat} {c} (h : ks[c]? = none) (w) : indexVal (.vec (ks.map encKey)) (.num w c) = .panic := by
  simp only [indexVal, List.getElem?_map, h, Option.map_none]

end PP.Rs
