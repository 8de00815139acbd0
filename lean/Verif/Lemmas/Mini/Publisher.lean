import Verif.Lemmas.Mini.World

/-! # publisher.rs does what Model/Publisher says -/
namespace PP.Mini
attribute [local congr] Res.bind_congr loopN_congr forN_congr

theorem follow_place {h : Heap} {a : Nat} {p : List Step} {v : Val} (hp : loadV h (.ref a p) = some v) (hv : ∀ b q, v ≠ .ref b q) :
    follow (.ref a p) h = .ref a p := by
  unfold follow
  rw [hp]
  cases v with
  | ref b q => exact absurd rfl (hv b q)
  | _ => rfl

theorem load_place {h : Heap} {a : Nat} {p : List Step} {v : Val} (hp : loadV h (.ref a p) = some v) : load (.ref a p) h = .ok v h := by
  simp only [load, hp]

theorem loadV_step {h : Heap} {a : Nat} {p : List Step} {s : Step} {v w : Val} (hp : loadV h (.ref a p) = some v) (hs : stepAt v s = some w) :
    loadV h (.ref a (p ++ [s])) = some w := by rw [loadV_append, hp, Option.bind_some, hs]

theorem callMethod_mut {Q : Prog} {call : Call} {m : Name} {h : Heap} {a : Nat} {p : List Step} {t : Name} {fs args} {f : Fn}
    (hp : loadV h (.ref a p) = some (.struct t fs)) (hf : Q.fn? (some t) m = some f) (hr : f.recv = .refMut) :
    callMethod Q call m (.ref a p) args h = call (.fn (some t) m) (.ref a p :: args) h := by
  simp only [callMethod, follow_place hp (by intros; nofun), hp, hf, hr]
theorem callMethod_ref {Q : Prog} {call : Call} {m : Name} {h : Heap} {a : Nat} {p : List Step} {t : Name} {fs args} {f : Fn}
    (hp : loadV h (.ref a p) = some (.struct t fs)) (hf : Q.fn? (some t) m = some f) (hr : f.recv = .ref) :
    callMethod Q call m (.ref a p) args h = call (.fn (some t) m) (.struct t fs :: args) h := by
  simp only [callMethod, follow_place hp (by intros; nofun), hp, hf, hr]
theorem callMethod_val {Q : Prog} {call : Call} {m : Name} {h : Heap} {t : Name} {fs args} {f : Fn}
    (hf : Q.fn? (some t) m = some f) (hr : f.recv = .ref ∨ f.recv = .val) :
    callMethod Q call m (.struct t fs) args h = call (.fn (some t) m) (.struct t fs :: args) h := by
  rcases hr with hr | hr <;> simp only [callMethod, follow_struct, loadV, hf, hr]
/-- A method of the library. -/
theorem callMethod_lib {Q : Prog} {call : Call} {m : Name} {h : Heap} {a : Nat} {p : List Step} {v : Val} {args}
    (hp : loadV h (.ref a p) = some v) (hv : ∀ b q, v ≠ .ref b q) (hs : ∀ t fs, v ≠ .struct t fs) :
    callMethod Q call m (.ref a p) args h = method m (.ref a p) v args h := by
  unfold callMethod
  simp only [follow_place hp hv]
  rw [hp]
  cases v with
  | struct t fs => exact absurd rfl (hs t fs)
  | _ => rfl

theorem project_place {h : Heap} {a : Nat} {p : List Step} {v : Val} {f : Name} (hp : loadV h (.ref a p) = some v) (hv : ∀ b q, v ≠ .ref b q) :
    project f (.ref a p) h = .ok (.ref a (p ++ [.fld f])) h := by
  simp only [project, follow_place hp hv]

theorem valEq_key (i j : Nat) : valEq (encKey i) (encKey j) = some (decide (i = j)) := by simp [valEq, atomEq, encKey]
theorem binop_eq_key (i j : Nat) (h : Heap) : binop .eq (encKey i) (encKey j) h = .ok (.bool (decide (i = j))) h := by simp only [binop, valEq_key]
theorem binop_ne_key (i j : Nat) (h : Heap) : binop .ne (encKey i) (encKey j) h = .ok (.bool (!decide (i = j))) h := by simp only [binop, valEq_key]

section
variable {R U : Type} {W : World R U} {n : Nat} {t : Publisher R} {h : Heap} {a : Nat} {p : List Step}

/-- The results of a function that ends: the model's, or a panic if that is one. -/
def outRes {α : Type} (o : Out α) (f : α → Res Val) : Res Val :=
  match o with
  | .ok x => f x
  | .panic _ => .panic
  | .oof => .oof

theorem usize_from (W : World R U) (n k : Nat) (h : Heap) : run W.Q (n + 1) (.fn (some n!"usize") n!"from") [encKey k] h = .ok (.int k) h := by
  rw [run]
  simp only [W.core.f_usize_from, Ast.usize.from]
  mini [encKey, project, List.getElem?_cons_zero, castTo]

theorem nodes_step (vn : R → Name) (t : Publisher R) : stepAt (encPub vn t) (.fld n!"nodes") = some (.vec (t.nodes.map (encNode vn))) := rfl

theorem nodes_place (hp : loadV h (.ref a p) = some (encPub W.vn t)) :
    loadV h (.ref a (p ++ [.fld n!"nodes"])) = some (.vec (t.nodes.map (encNode W.vn))) := loadV_step hp rfl

theorem node_place (hp : loadV h (.ref a p) = some (encPub W.vn t)) {k : Nat} {nd : Node R} (hk : t.nodes[k]? = some nd) :
    loadV h (.ref a (p ++ [.fld n!"nodes"] ++ [.idx k])) = some (encNode W.vn nd) := loadV_step (nodes_place hp) (by simp [stepAt, hk])

theorem set_node_field (hp : loadV h (.ref a p) = some (encPub W.vn t)) {k : Nat} {nd nd' : Node R} (hk : t.nodes[k]? = some nd) {f : Name} {u w : Val}
    (hu : stepAt (encNode W.vn nd) (.fld f) = some u) (hw : stepPut (encNode W.vn nd) (.fld f) w = encNode W.vn nd') :
    upd h a (p ++ [.fld n!"nodes"] ++ [.idx k] ++ [.fld f]) w = upd h a p (encPub W.vn ⟨t.nodes.set k nd'⟩) := by
  rw [upd_step (node_place hp hk) hu, upd_step (nodes_place hp) (u := encNode W.vn nd) (by simp [stepAt, hk]), upd_step hp (nodes_step _ _), hw]
  congr 1
  simp [stepPut, setField, encPub, List.map_set]

/-- `self.nodes[k]` as a place -/
theorem element_node (hp : loadV h (.ref a p) = some (encPub W.vn t)) (k : Nat) :
    element (.int k) (.ref a (p ++ [.fld n!"nodes"])) h = outRes (t.getNode k) fun _ => .ok (.ref a (p ++ [.fld n!"nodes"] ++ [.idx k])) h := by
  unfold element
  rw [follow_place (nodes_place hp) (by intros; nofun), nodes_place hp]
  cases hk : t.nodes[k]? <;> simp [Publisher.getNode, hk, Out.ofOption, outRes]

theorem get_mut_node_run (hp : loadV h (.ref a p) = some (encPub W.vn t)) (k : Nat) :
    run W.Q (n + 2) (.fn (some n!"BasicPublisher") n!"get_mut_node") [.ref a p, encKey k] h =
      outRes (t.getNode k) fun _ => .ok (.ref a (p ++ [.fld n!"nodes"] ++ [.idx k])) h := by
  rw [run]
  simp only [W.core.f_BasicPublisher_get_mut_node, Ast.BasicPublisher.get_mut_node]
  mini [project_place hp (by intros; nofun), usize_from, element_node hp]
  cases t.getNode k <;> simp only [outRes] <;> mini

theorem add_node_run (hp : loadV h (.ref a p) = some (encPub W.vn t)) (r : R) (x y : Nat) (b : Bool) :
    run W.Q (n + 1) (.fn (some n!"BasicPublisher") n!"add_node") [.ref a p, encRule W.vn r, .int x, .int y, .bool b] h =
      outRes (t.addNode r x y b) fun o => .ok (encKey o.1) (upd h a p (encPub W.vn o.2)) := by
  rw [run]
  simp only [W.core.f_BasicPublisher_add_node, Ast.BasicPublisher.add_node]
  mini [project_place hp (by intros; nofun), callMethod_lib (nodes_place hp) (by intros; nofun) (by intros; nofun)]
  by_cases hl : t.nodes.length < 4294967296
  · have e : encNode W.vn (⟨t.nodes.length, r, x, y, b, []⟩ : Node R) = .struct n!"Node" [(n!"index", .struct n!"Key" [(0, .int t.nodes.length)]),
      (n!"rule", encRule W.vn r), (n!"start_position", .int x), (n!"end_position", .int y), (n!"result", .bool b), (n!"children", .vec [])] := rfl
    mini [List.length_map, hl, W.core.tuple, List.length_cons, List.length_nil, Nat.reduceAdd, List.range_succ, List.range_zero, List.nil_append,
      List.zip_cons_cons, List.zip_nil_right, project_place hp (by intros; nofun),
      callMethod_lib (nodes_place hp) (by intros; nofun) (by intros; nofun), store_place (nodes_place hp), upd_step hp (nodes_step _ _),
      Publisher.addNode, outRes, encKey, ← e]
    simp [stepPut, encPub, setField]
  · mini [List.length_map, hl, Publisher.addNode, outRes]

theorem connect_run (hp : loadV h (.ref a p) = some (encPub W.vn t)) (i j : Nat) :
    run W.Q (n + 3) (.fn (some n!"BasicPublisher") n!"connect") [.ref a p, encKey i, encKey j] h =
      outRes (t.connect i j) fun o => .ok .unit (upd h a p (encPub W.vn o)) := by
  rw [run]
  simp only [W.core.f_BasicPublisher_connect, Ast.BasicPublisher.connect]
  by_cases e : i = j
  · mini [binop_ne_key, e, decide_true, Publisher.connect, outRes]
  · mini [binop_ne_key, e, decide_false, callMethod_mut hp W.core.f_BasicPublisher_get_mut_node rfl, get_mut_node_run hp,
      Publisher.connect, Publisher.getNode, Publisher.modify]
    cases hk : t.nodes[i]? with
    | none => rfl
    | some nd =>
      have hn := node_place hp hk
      simp only [Out.ofOption, outRes]
      mini [project_place hn (by intros; nofun), callMethod_lib (loadV_step hn (s := .fld n!"children") (w := .vec (nd.children.map encKey)) rfl) (by intros; nofun) (by intros; nofun)]
      mini [store_place (loadV_step hn (s := .fld n!"children") (w := .vec (nd.children.map encKey)) rfl)]
      rw [set_node_field hp hk (nd' := { nd with children := nd.children ++ [j] }) rfl (by simp [stepPut, encNode, setField])]

theorem set_start_run (hp : loadV h (.ref a p) = some (encPub W.vn t)) (k x : Nat) :
    run W.Q (n + 2) (.fn (some n!"BasicPublisher") n!"set_node_start_position") [.ref a p, encKey k, .int x] h =
      outRes (t.setNodeStart k x) fun o => .ok .unit (upd h a p (encPub W.vn o)) := by
  rw [run]
  simp only [W.core.f_BasicPublisher_set_node_start_position, Ast.BasicPublisher.set_node_start_position]
  mini [project_place hp (by intros; nofun), usize_from, element_node hp, Publisher.getNode, Publisher.setNodeStart, Publisher.modify]
  cases hk : t.nodes[k]? with
  | none => rfl
  | some nd =>
    have hn := node_place hp hk
    simp only [Out.ofOption, outRes]
    mini [project_place hn (by intros; nofun), store_place (loadV_step hn (s := .fld n!"start_position") (w := .int nd.start) rfl)]
    rw [set_node_field hp hk (nd' := { nd with start := x }) rfl (by simp [stepPut, encNode, setField])]

theorem set_stop_run (hp : loadV h (.ref a p) = some (encPub W.vn t)) (k x : Nat) :
    run W.Q (n + 2) (.fn (some n!"BasicPublisher") n!"set_node_end_position") [.ref a p, encKey k, .int x] h =
      outRes (t.setNodeStop k x) fun o => .ok .unit (upd h a p (encPub W.vn o)) := by
  rw [run]
  simp only [W.core.f_BasicPublisher_set_node_end_position, Ast.BasicPublisher.set_node_end_position]
  mini [project_place hp (by intros; nofun), usize_from, element_node hp, Publisher.getNode, Publisher.setNodeStop, Publisher.modify]
  cases hk : t.nodes[k]? with
  | none => rfl
  | some nd =>
    have hn := node_place hp hk
    simp only [Out.ofOption, outRes]
    mini [project_place hn (by intros; nofun), store_place (loadV_step hn (s := .fld n!"end_position") (w := .int nd.stop) rfl)]
    rw [set_node_field hp hk (nd' := { nd with stop := x }) rfl (by simp [stepPut, encNode, setField])]

theorem set_result_run (hp : loadV h (.ref a p) = some (encPub W.vn t)) (k : Nat) (x : Bool) :
    run W.Q (n + 2) (.fn (some n!"BasicPublisher") n!"set_node_result") [.ref a p, encKey k, .bool x] h =
      outRes (t.setNodeResult k x) fun o => .ok .unit (upd h a p (encPub W.vn o)) := by
  rw [run]
  simp only [W.core.f_BasicPublisher_set_node_result, Ast.BasicPublisher.set_node_result]
  mini [project_place hp (by intros; nofun), usize_from, element_node hp, Publisher.getNode, Publisher.setNodeResult, Publisher.modify]
  cases hk : t.nodes[k]? with
  | none => rfl
  | some nd =>
    have hn := node_place hp hk
    simp only [Out.ofOption, outRes]
    mini [project_place hn (by intros; nofun), store_place (loadV_step hn (s := .fld n!"result") (w := .bool nd.result) rfl)]
    rw [set_node_field hp hk (nd' := { nd with result := x }) rfl (by simp [stepPut, encNode, setField])]

/-- The loop of `connect_if_not_connected`. -/
theorem contains_loop {step : Val → Heap → Res Val} {j : Nat} (h₁ : ∀ i, i = j → ∀ h, step (encKey i) h = .ret .unit h)
    (h₂ : ∀ i, i ≠ j → ∀ h, ∃ v, step (encKey i) h = .ok v h) :
    ∀ (l : List Nat) (h : Heap), forN step (l.map encKey) h = if l.contains j then .ret .unit h else .ok .unit h
  | [], h => by simp [forN]
  | i :: l, h => by
    rw [List.map_cons, forN]
    by_cases e : i = j
    · subst e; simp only [h₁ i rfl, List.contains_cons, beq_self_eq_true, Bool.true_or, if_true]
    · obtain ⟨v, hv⟩ := h₂ i e h
      have e' : (j == i) = false := by simpa using fun h => e h.symm
      simp only [hv, contains_loop h₁ h₂ l h, List.contains_cons, e', Bool.false_or]

theorem connect_if_run (hp : loadV h (.ref a p) = some (encPub W.vn t)) (i j : Nat) :
    run W.Q (n + 3) (.fn (some n!"BasicPublisher") n!"connect_if_not_connected") [.ref a p, encKey i, encKey j] h =
      outRes (t.connectIfNotConnected i j) fun o => .ok .unit (upd h a p (encPub W.vn o)) := by
  rw [run]
  simp only [W.core.f_BasicPublisher_connect_if_not_connected, Ast.BasicPublisher.connect_if_not_connected]
  mini [callMethod_mut hp W.core.f_BasicPublisher_get_mut_node rfl, get_mut_node_run hp,
      Publisher.connectIfNotConnected, Publisher.getNode, Publisher.modify]
  cases hk : t.nodes[i]? with
  | none => rfl
  | some nd =>
    have hn := node_place hp hk
    have hc : loadV h (.ref a (p ++ [.fld n!"nodes"] ++ [.idx i] ++ [.fld n!"children"])) = some (.vec (nd.children.map encKey)) := loadV_step hn rfl
    simp only [Out.ofOption, outRes]
    mini [project_place hn (by intros; nofun), follow_place hc (by intros; nofun), load_place hc, elements]
    generalize hs : (fun (v : Val) (h_1 : Heap) => _ : Val → Heap → Res Val) = step
    rw [contains_loop (j := j) (by
        intro k e h
        rw [← hs]
        subst e
        have hl : load (follow (encKey k) h) h = .ok (encKey k) h := rfl
        mini [hl, binop_eq_key, decide_true]) (by
        intro k e h
        rw [← hs]
        refine ⟨.unit, ?_⟩
        have hl : load (follow (encKey k) h) h = .ok (encKey k) h := rfl
        mini [hl, binop_eq_key, e, decide_false])]
    split
    · have e : t.nodes.set i nd = t.nodes := by
        obtain ⟨hl, rfl⟩ := List.getElem?_eq_some_iff.mp hk
        simp
      mini [e, upd_self hp]
    · mini [project_place hn (by intros; nofun), callMethod_lib hc (by intros; nofun) (by intros; nofun), store_place hc]
      rw [set_node_field hp hk (nd' := { nd with children := nd.children ++ [j] }) rfl (by simp [stepPut, encNode, setField])]
end
end PP.Mini
