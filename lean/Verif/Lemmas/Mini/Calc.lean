import Verif.Lemmas.Mini.Ex11

/-! # What the evaluators of examples 1 to 4 have in common: reading nodes, loops over children, local variables -/
namespace PP.Mini
open PP.Gen
attribute [local congr] Res.bind_congr loopN_congr forN_congr

theorem load_i64 {x h} : load (.i64 x) h = .ok (.i64 x) h := rfl
theorem follow_i64 {x h} : follow (.i64 x) h = .i64 x := rfl
theorem callMethod_i64 {Q call m args} {x} {h} : callMethod Q call m (.i64 x) args h = method m (.i64 x) (.i64 x) args h := rfl
theorem m_parse {pl bs h} : method n!"parse" pl (.str bs) [] h =
    (match parseI64 bs with | some x => .ok (.some (.i64 x)) h | none => .ok .none h) := rfl
theorem m_push_str {a p bs cs h} : method n!"push_str" (.ref a p) (.str bs) [.str cs] h = store a p (.str (bs ++ cs)) h := rfl
theorem m_pow {pl a b h} : method n!"pow" pl (.i64 a) [.int b] h = i64 (a ^ b) h := rfl
theorem m_iter {pl l h} : method n!"iter" pl (.vec l) [] h = .ok (.vec l) h := rfl
theorem m_is_empty {pl l h} : method n!"is_empty" pl (.vec l) [] h = .ok (.bool l.isEmpty) h := rfl
theorem m_sum {pl l h} : method n!"sum" pl (.vec l) [] h = sumN 0 l h := rfl
theorem matchPat_variants (vs : List (Name × Name)) (t x : Name) (env : Env) :
    matchPat (.variants vs) (.variant t x) env = if (t, x) ∈ vs then some env else none := rfl

/-- The heap has grown only. -/
structure Keeps (h h' : Heap) : Prop where
  le : h.length ≤ h'.length
  eq : ∀ i, i < h.length → h'[i]? = h[i]?

theorem Keeps.rfl' {h : Heap} : Keeps h h := ⟨Nat.le_refl _, fun _ _ => rfl⟩
theorem Keeps.trans {h h' h'' : Heap} (f : Keeps h h') (g : Keeps h' h'') : Keeps h h'' :=
  ⟨Nat.le_trans f.le g.le, fun i hi => (g.eq i (Nat.lt_of_lt_of_le hi f.le)).trans (f.eq i hi)⟩
theorem Keeps.push {h h' : Heap} (f : Keeps h h') (v : Val) : Keeps h (h' ++ [v]) where
  le := by have := f.le; simp; omega
  eq i hi := by rw [List.getElem?_append_left (Nat.lt_of_lt_of_le hi f.le)]; exact f.eq i hi
theorem Keeps.set {h h' : Heap} (f : Keeps h h') {i : Nat} (hi : h.length ≤ i) (v : Val) : Keeps h (h'.set i v) where
  le := by have := f.le; simp; omega
  eq j hj := by rw [List.getElem?_set_ne (by omega)]; exact f.eq j hj
theorem Keeps.unpush {h h' : Heap} {v : Val} (f : Keeps (h ++ [v]) h') : Keeps h h' := (Keeps.rfl'.push v).trans f
/-- The variable allocated last keeps its value. -/
theorem Keeps.last {h h' : Heap} {v : Val} (f : Keeps (h ++ [v]) h') : h'[h.length]? = some v := by
  rw [f.eq _ (by simp)]; simp

section
variable {R U : Type}

theorem get_children_run (W : World R U) (n : Nat) (nd : Node R) (h : Heap) :
    run W.Q (n + 1) (.fn (some n!"Node") n!"get_children") [encNode W.vn nd] h = .ok (.vec (nd.children.map encKey)) h := by
  rw [run]
  simp only [W.core.f_Node_get_children, Ast.Node.get_children]
  mini [nd_children]

theorem node_string_run (W : World R U) (n : Nat) (nd : Node R) (src : Bytes) (h : Heap) :
    run W.Q (n + 1) (.fn (some n!"Node") n!"get_string") [encNode W.vn nd, .str src] h =
      outRes (Source.strSlice src nd.start nd.stop) fun l => .ok (.str l) h := by
  rw [run]
  simp only [W.core.f_Node_get_string, Ast.Node.get_string]
  have e : (src.take nd.stop).drop nd.start = (src.drop nd.start).take (nd.stop - nd.start) := List.drop_take ..
  by_cases hs : nd.start ≤ nd.stop ∧ nd.stop ≤ src.length ∧ Source.isCharBoundary src nd.start ∧ Source.isCharBoundary src nd.stop
  · mini [nd_start, nd_stop, castTo, slicing, loadV, boundary, Source.strSlice, hs, and_self, outRes, e]
  · mini [nd_start, nd_stop, castTo, slicing, loadV, boundary, Source.strSlice, hs, outRes]

theorem call_pub (W : World R U) (t : Publisher R) (c : Call) (m : Name) {f : Fn} (args h) (hf : W.Q.fn? (some n!"BasicPublisher") m = some f)
    (hr : f.recv = .ref) : callMethod W.Q c m (encPub W.vn t) args h = c (.fn (some n!"BasicPublisher") m) (encPub W.vn t :: args) h :=
  callMethod_val hf (.inl hr)
theorem call_node (W : World R U) (nd : Node R) (c : Call) (m : Name) {f : Fn} (args h) (hf : W.Q.fn? (some n!"Node") m = some f)
    (hr : f.recv = .ref) : callMethod W.Q c m (encNode W.vn nd) args h = c (.fn (some n!"Node") m) (encNode W.vn nd :: args) h :=
  callMethod_val hf (.inl hr)

/-- Fuel for the evaluators: two calls for each level of the tree. -/
def CalcFuel (d : Dir) (n m : Nat) : Prop :=
  match d with
  | .sound => n ≤ m
  | .complete => 2 * m + 3 ≤ n
end

theorem ev_let_block {P : Prog} {c : Call} {n : Nat} {pl : Bool} {x : Name} {e : Ex} {B : Blk} {env : Env} {h : Heap} :
    ev P c n pl (.block (.letS (.var x) false e B)) env h = (ev P c n false e env h).bind fun v h => evBlk P c n B ((x, .val v) :: env) h := by
  simp only [ev, evBlk, matchPat_var]
theorem evBlk_let {P : Prog} {c : Call} {n : Nat} {x : Name} {e : Ex} {B : Blk} {env : Env} {h : Heap} :
    evBlk P c n (.letS (.var x) false e B) env h = (ev P c n false e env h).bind fun v h => evBlk P c n B ((x, .val v) :: env) h := by
  simp only [evBlk, matchPat_var]

theorem ev_mut_block {P : Prog} {c : Call} {n : Nat} {pl : Bool} {x : Name} {e : Ex} {B : Blk} {env : Env} {h : Heap} :
    ev P c n pl (.block (.letS (.var x) true e B)) env h =
      (ev P c n false e env h).bind fun v h => evBlk P c n B ((x, .loc h.length) :: env) (h ++ [v]) := by
  simp only [ev, evBlk]
theorem evBlk_expr {P : Prog} {c : Call} {n : Nat} {e : Ex} {B : Blk} {env : Env} {h : Heap} :
    evBlk P c n (.exprS e B) env h = (ev P c n false e env h).bind fun _ h => evBlk P c n B env h := by
  simp only [evBlk]

theorem call_loc {Q : Prog} {c : Call} {h : Heap} {a : Nat} {v : Val} {m : Name} {args : List Val} (e : h[a]? = some v) (hv : ∀ b p, v ≠ .ref b p)
    (hs : ∀ t fs, v ≠ .struct t fs) : callMethod Q c m (.ref a []) args h = method m (.ref a []) v args h := by
  have e' : loadV h (.ref a []) = some v := by simp [loadV, e, getAt_nil]
  have ef : follow (.ref a []) h = .ref a [] := by
    unfold follow
    rw [e']
    split
    · rename_i b p hb; exact absurd (Option.some.inj hb) (hv b p)
    · rfl
  unfold callMethod
  simp only [ef, e']

theorem push_loc {Q : Prog} {c : Call} {h : Heap} {a : Nat} {l : List Val} {x : Val} (e : h[a]? = some (.vec l)) :
    callMethod Q c n!"push" (.ref a []) [x] h = .ok .unit (h.set a (.vec (l ++ [x]))) := by
  rw [call_loc e nofun nofun, m_vec_push, store_loc e]

theorem getNode_mem {R : Type} {t : Publisher R} {k : Nat} {nd : Node R} (h : t.getNode k = .ok nd) : nd ∈ t.nodes := by
  unfold Publisher.getNode at h
  cases hk : t.nodes[k]? with
  | none => rw [hk] at h; cases h
  | some x => rw [hk] at h; obtain rfl : x = nd := by simpa [Out.ofOption] using h
              exact List.mem_of_getElem? hk

/-- A node is read. -/
theorem get_node_sim {R U : Type} (W : World R U) {d : Dir} {n : Nat} (hf : Fuel d n 2) (t : Publisher R) (k : Nat) (h : Heap) :
    Sim d (fun v h' nd => v = encNode W.vn nd ∧ h' = h ∧ nd ∈ t.nodes)
      (run W.Q n (.fn (some n!"BasicPublisher") n!"get_node") [encPub W.vn t, encKey k] h) (t.getNode k) :=
  Sim.runs hf (fun m => get_node_run W m t k h) (.ofOut (getNode_ne _ _) fun _ e => ⟨_, _, rfl, rfl, rfl, getNode_mem e⟩)

theorem strSlice_ne (s : Bytes) (i j : Nat) : Source.strSlice s i j ≠ .oof := by
  unfold Source.strSlice; split <;> simp

/-- The text of a node is read. -/
theorem node_string_sim {R U : Type} (W : World R U) {d : Dir} {n : Nat} (hf : Fuel d n 1) (nd : Node R) (src : Bytes) (h : Heap) :
    Sim d (fun v h' l => v = .str l ∧ h' = h) (run W.Q n (.fn (some n!"Node") n!"get_string") [encNode W.vn nd, .str src] h)
      (Source.strSlice src nd.start nd.stop) :=
  Sim.runs hf (fun m => node_string_run W m nd src h) (.ofOut (strSlice_ne _ _ _) fun _ _ => ⟨_, _, rfl, rfl, rfl⟩)

/-! ### Loops over the children of a node -/
section
variable {d : Dir} {β : Type} {step : Val → Heap → Res Val}

theorem fold_loop {I : β → Heap → Prop} {f : β → Nat → Out β}
    (hs : ∀ b k h, I b h → Sim d (fun _ h' b' => I b' h') (step (encKey k) h) (f b k)) :
    ∀ (l : List Nat) (b : β) (h : Heap), I b h →
      Sim d (fun v h' b' => v = .unit ∧ I b' h') (forN step (l.map encKey) h) (l.foldlM f b)
  | [], b, h, hi => .ok ⟨rfl, hi⟩
  | k :: l, b, h, hi => by
    rw [List.map_cons, forN, List.foldlM_cons]
    have hk := hs b k h hi
    generalize step (encKey k) h = r at hk ⊢
    generalize f b k = o at hk ⊢
    cases hk with
    | oofL e => exact .oofL e
    | oofR e => exact .oofR e
    | panic => exact .panic
    | ok hi' => exact fold_loop hs l _ _ hi'

theorem map_loop {I : List β → Heap → Prop} {f : Nat → Out β}
    (hs : ∀ b k h, I b h → Sim d (fun _ h' x => I (b ++ [x]) h') (step (encKey k) h) (f k)) :
    ∀ (l : List Nat) (acc : List β) (h : Heap), I acc.reverse h →
      Sim d (fun v h' b' => v = .unit ∧ I b' h') (forN step (l.map encKey) h) (List.mapM.loop f l acc)
  | [], b, h, hi => .ok ⟨rfl, hi⟩
  | k :: l, b, h, hi => by
    rw [List.map_cons, forN, List.mapM.loop]
    have hk := hs _ k h hi
    generalize step (encKey k) h = r at hk ⊢
    generalize f k = o at hk ⊢
    cases hk with
    | oofL e => exact .oofL e
    | oofR e => exact .oofR e
    | panic => exact .panic
    | ok hi' => exact map_loop hs l (_ :: b) _ (by simpa using hi')
end

/-- A `for` loop over the children of a node. -/
theorem for_children {R U : Type} {W : World R U} {d : Dir} {n : Nat} {x y : Name} {b : Ex} {env : Env} {h : Heap} {nd : Node R} {β : Type}
    {K : Val → Heap → β → Prop} {o : Out β} (hf : Fuel d n 1) (he : env.lookup y = some (.val (encNode W.vn nd)))
    (hs : Sim d K (forN (fun v h => ev W.Q (run W.Q n) n false b ((x, .val v) :: env) h) (nd.children.map encKey) h) o) :
    Sim d K (ev W.Q (run W.Q n) n false (.forIn (.var x) (.meth (.path [y]) n!"get_children" .nil) b) env h) o := by
  have e : ev W.Q (run W.Q n) n false (.forIn (.var x) (.meth (.path [y]) n!"get_children" .nil) b) env h =
      (run W.Q n (.fn (some n!"Node") n!"get_children") [encNode W.vn nd] h).bind fun v h =>
        match elements v with
        | some vs => forN (fun v h => ev W.Q (run W.Q n) n false b ((x, .val v) :: env) h) vs h
        | none => .stuck := by
    simp only [ev, evs, he, Res.bind_ok, matchPat_var, call_node W nd _ _ _ _ W.core.f_Node_get_children rfl]
    rfl
  rw [e]
  have hq : Sim d (fun a b (_ : Unit) => a = .vec (nd.children.map encKey) ∧ b = h)
      (run W.Q n (.fn (some n!"Node") n!"get_children") [encNode W.vn nd] h) (.ok ()) :=
    Sim.fuel hf fun m => by rw [get_children_run]; exact .ok ⟨rfl, rfl⟩
  generalize run W.Q n (.fn (some n!"Node") n!"get_children") [encNode W.vn nd] h = r at hq ⊢
  cases hq with
  | oofL e => exact .oofL e
  | ok k => obtain ⟨rfl, rfl⟩ := k; exact hs

theorem out_assoc {α β γ : Type} (x : Out α) (f : α → Out β) (g : β → Out γ) : x >>= f >>= g = x >>= fun a => f a >>= g := by
  cases x <;> rfl

/-! ### The whole tree -/

theorem Sim.eq {d : Dir} {α β : Type} {K : α → Heap → β → Prop} {x : Res α} {y : Out β} (h : Sim d K x y) :
    Sim d (fun a h b => K a h b ∧ y = .ok b) x y := by
  cases h with
  | oofL e => exact .oofL e
  | oofR e => exact .oofR e
  | panic => exact .panic
  | ok k => exact .ok ⟨k, rfl⟩

theorem Keeps.of {h h' : Heap} (e : ∀ i, i < h.length → h'[i]? = h[i]?) : Keeps h h' := by
  refine ⟨Nat.le_of_not_lt fun hlt => ?_, e⟩
  have h1 := e h'.length hlt
  rw [List.getElem?_eq_none (Nat.le_refl _), List.getElem?_eq_getElem hlt] at h1
  cases h1

/-- `evaluate_tree`, which is the same in the four examples (examples/example_1/src/lib.rs:4): clearing, and then the evaluation of the
root. -/
theorem tree_sim {R U β : Type} {W : World R U} {d : Dir} {enc : β → Val} {g : R} {f : Publisher R → Node R → Out β}
    (hq : W.Q.fn? none n!"evaluate_tree" = some Ast.Calc1.evaluate_tree) (hnt : W.Q.isTuple n!"evaluate_tree_kernel" = false)
    (hv : W.vn g = n!"Grammar") (hg : W.Q.isVariant n!"Rules" n!"Grammar" = true) {t : Publisher R} (hl : t.nodes.length < 18446744073709551616)
    {src : Bytes} {n m : Nat} (hf : ClearFuel d n m)
    (hs : ∀ t', t.clearFalse g m = .ok t' → ∀ nd h, Sim d (fun v h' x => v = enc x ∧ Keeps h h')
      (run W.Q (n + 1) (.fn none n!"evaluate_tree_kernel") [encPub W.vn t', .str src, encNode W.vn nd] h) (f t' nd)) (h : Heap) :
    Sim d (fun v h' x => v = enc x ∧ Keeps h h') (run W.Q (n + 2) (.fn none n!"evaluate_tree") [encPub W.vn t, .str src] h)
      (do let t ← t.clearFalse g m; let nd ← t.getNode 0; f t nd) := by
  have hk : Fuel d (n + 1) 3 := by intro e; subst e; simp only [ClearFuel] at hf; omega
  rw [run]
  simp only [hq, Ast.Calc1.evaluate_tree]
  simp only [bindAll, reduceIte]
  rw [ev_let_block]
  refine Sim.result (K := fun v h' t' => (v = encPub W.vn t' ∧ ∀ i, i < h.length → h'[i]? = h[i]?) ∧ t.clearFalse g m = .ok t') ?_ ?_
  · have e : callMethod W.Q (run W.Q (n + 1)) n!"clear_false" (encPub W.vn t) [] h =
        run W.Q (n + 1) (.fn (some n!"BasicPublisher") n!"clear_false") [encPub W.vn t] h :=
      callMethod_val W.core.f_BasicPublisher_clear_false (.inr rfl)
    mini [e]
    exact (clear_false_sim hf t h hv hg hl).eq
  · rintro _ h₁ t' ⟨⟨rfl, hk₁⟩, ht'⟩
    mini [call_pub W t' _ _ _ _ W.core.f_BasicPublisher_get_node rfl]
    simp only [key_con, Res.bind_ok]
    refine Sim.result (get_node_sim W (fun e => Nat.le_trans (by decide) (hk e)) t' 0 _) ?_
    rintro _ h₂ nd ⟨rfl, rfl, -⟩
    have ew : follow (encPub W.vn t') h₂ = encPub W.vn t' := rfl
    have el : load (encPub W.vn t') h₂ = .ok (encPub W.vn t') h₂ := rfl
    mini [hnt, ew, el]
    refine Sim.mono (hs t' ht' nd h₂) ?_
    rintro _ h₃ x ⟨rfl, hk₃⟩
    exact ⟨rfl, (Keeps.of hk₁).trans hk₃⟩

/-! ### Arithmetic -/

theorem i64_sim {d : Dir} (x : Int) (h : Heap) : Sim d (fun v h' y => v = .i64 y ∧ h' = h) (i64 x h) (i64Result true x) := by
  unfold i64 i64Result
  by_cases hx : InI64 x
  · rw [if_pos (show _ ∧ _ from hx), if_pos hx]; exact .ok ⟨rfl, rfl⟩
  · rw [if_neg (show ¬ (_ ∧ _) from hx), if_neg hx]; exact .panic

theorem sum_sim {d : Dir} (h : Heap) : ∀ (l : List Int) (s : Int),
    Sim d (fun v h' y => v = .i64 y ∧ h' = h) (sumN s (l.map .i64) h) (l.foldlM (fun a x => i64Result true (a + x)) s)
  | [], s => .ok ⟨rfl, rfl⟩
  | x :: l, s => by
    rw [List.map_cons, sumN, List.foldlM_cons]
    unfold i64Result
    by_cases hx : InI64 (s + x)
    · rw [if_pos (show _ ∧ _ from hx), if_pos hx]; exact sum_sim h l (s + x)
    · rw [if_neg (show ¬ (_ ∧ _) from hx), if_neg hx]; exact .panic

end PP.Mini
