import Verif.Lemmas.Mini.Context
import Verif.Lemmas.Mini.Kernels

/-! # var_name.rs does what Model/VarName says -/
namespace PP.Mini
attribute [local congr] Res.bind_congr loopN_congr forN_congr
section
variable {R U : Type} [DecidableEq R] {W : World R U} {d : Dir} {n : Nat} {f : Val} {g : PFn R U} {parent pos : Nat} {st : St R U} {h : Heap}

/-- A rule function does what a function of the model does. -/
def World.Rule (W : World R U) (d : Dir) (n : Nat) (f : Val) (g : PFn R U) : Prop :=
  ∀ parent pos st h, W.Good st h →
    Sim d (W.K h) (run W.Q n f [.cell W.u, encKey parent, .cell W.a, encSource W.src, .int pos] h) (g parent pos st)

theorem Fuel.pred {k : Nat} (hf : Fuel d (n + 1) (k + 1)) : Fuel d n k := fun e => Nat.le_of_succ_le_succ (hf e)
theorem Fuel.le {k k' : Nat} (hf : Fuel d n k) (h : k' ≤ k) : Fuel d n k' := fun e => Nat.le_trans h (hf e)

/-- A step that is pure in the model. -/
theorem Sim.pure {d : Dir} {α β β' : Type} {K : α → Heap → β → Prop} {x : Res α} {y : β} {f : α → Heap → Res Val} {K' : Val → Heap → β' → Prop}
    {o : Out β'} (h : Sim d K x (.ok y)) (hf : ∀ a h, K a h y → Sim d K' (f a h).result o) : Sim d K' (x.bind f).result o := by
  cases h with
  | oofL e => exact .oofL e
  | ok k => exact hf _ _ k

/-- A round of a loop, then the rest. -/
def Res.round (c : Heap → Res Val) : Res Val → Res Val
  | .ok _ h => c h
  | .brk h => .ok .unit h
  | r => r

theorem loopN_round (step : Heap → Res Val) (k : Nat) (h : Heap) : loopN step (k + 1) h = (step h).round (loopN step k) := by
  rw [loopN]
  cases step h <;> rfl

theorem Sim.round {d : Dir} {α β β' : Type} {K : α → Heap → β → Prop} {x : Res α} {y : Out β} {f : α → Heap → Res Val} {c : Heap → Res Val}
    {K' : Val → Heap → β' → Prop} {g : β → Out β'} (h : Sim d K x y) (hf : ∀ a h b, K a h b → Sim d K' ((f a h).round c) (g b)) :
    Sim d K' ((x.bind f).round c) (y >>= g) := by
  cases h with
  | oofL e => exact .oofL e
  | oofR e => exact .oofR e
  | panic => exact .panic
  | ok k => exact hf _ _ _ k
theorem Sim.pureRound {d : Dir} {α β β' : Type} {K : α → Heap → β → Prop} {x : Res α} {y : β} {f : α → Heap → Res Val} {c : Heap → Res Val}
    {K' : Val → Heap → β' → Prop} {o : Out β'} (h : Sim d K x (.ok y)) (hf : ∀ a h, K a h y → Sim d K' ((f a h).round c) o) :
    Sim d K' ((x.bind f).round c) o := by
  cases h with
  | oofL e => exact .oofL e
  | ok k => exact hf _ _ k

theorem Sim.stepRound {Q : Prog} {d : Dir} {β : Type} {K : Val → Heap → β → Prop} {k n : Nat} {v w args h h'} {o : Out β} {f : Val → Heap → Res Val}
    {c : Heap → Res Val} (hf : Fuel d n k) (hs : ∀ m, run Q (m + k) v args h = .ok w h') (hn : Sim d K ((f w h').round c) o) :
    Sim d K (((run Q n v args h).bind f).round c) o := by
  have hq : Sim d (fun a b (_ : Unit) => a = w ∧ b = h') (run Q n v args h) (.ok ()) := Sim.fuel hf fun m => by rw [hs m]; exact .ok ⟨rfl, rfl⟩
  generalize run Q n v args h = r at hq ⊢
  cases hq with
  | oofL e => exact .oofL e
  | ok k => obtain ⟨rfl, rfl⟩ := k; exact hn

theorem set_loc {h : Heap} {i : Nat} {v : Val} (w : Val) (e : h[i]? = some v) : (h.set i w)[i]? = some w := by
  have := (List.getElem?_eq_some_iff.mp e).1
  simp [this]
theorem set_other {h : Heap} {i j : Nat} {w : Val} {x : Option Val} (hij : i ≠ j) (e : h[j]? = x) : (h.set i w)[j]? = x := by
  rw [List.getElem?_set_ne hij]; exact e
theorem loc_0 {h : Heap} {L : Nat} {a : Val} {l : List Val} (e : h[L]? = some (.tuple (a :: l))) : project 0 (.ref L []) h = .ok (.ref L [.fld 0]) h :=
  project_place (place_root e) (by intros; nofun)
theorem loc_1 {h : Heap} {L : Nat} {a : Val} {l : List Val} (e : h[L]? = some (.tuple (a :: l))) : project 1 (.ref L []) h = .ok (.ref L [.fld 1]) h :=
  project_place (place_root e) (by intros; nofun)
theorem load_0 {h : Heap} {L : Nat} {a : Val} {l : List Val} (e : h[L]? = some (.tuple (a :: l))) : load (.ref L [.fld 0]) h = .ok a h :=
  load_place (loadV_step (p := []) (place_root e) rfl)
theorem load_1 {h : Heap} {L : Nat} {a b : Val} {l : List Val} (e : h[L]? = some (.tuple (a :: b :: l))) : load (.ref L [.fld 1]) h = .ok b h :=
  load_place (loadV_step (p := []) (place_root e) rfl)

theorem proj_0 {a : Val} {l : List Val} {h : Heap} : project 0 (.tuple (a :: l)) h = .ok a h := rfl
theorem proj_1 {a b : Val} {l : List Val} {h : Heap} : project 1 (.tuple (a :: b :: l)) h = .ok b h := rfl
theorem proj_2 {a b c : Val} {l : List Val} {h : Heap} : project 2 (.tuple (a :: b :: c :: l)) h = .ok c h := rfl

omit [DecidableEq R] in
/-- Through a variable that holds `context.borrow_mut()`. -/
theorem World.Good.via (hg : W.Good st h) {L : Nat} (hL : h[L]? = some (.ref W.a [])) {call : Call} {m : Name} {args : List Val} :
    callMethod W.Q call m (.ref L []) args h = callMethod W.Q call m (.ref W.a []) args h := by
  obtain ⟨l, l', e, -, -⟩ := hg.ctx
  exact callMethod_var hL (place_root e) (by intros; nofun)

omit [DecidableEq R] in
/-- A local variable is not changed by the functions of the core. -/
theorem World.Frame.loc {h h' : Heap} (f : W.Frame h h') (hg : W.Good st h₀) (hle : h₀.length ≤ L) {v : Val} (e : h[L]? = some v) : h'[L]? = some v :=
  (f.eq L (List.getElem?_eq_some_iff.mp e).1 (by have := hg.lt_a; omega) (by have := hg.lt_u; omega)).trans e

omit [DecidableEq R] in
theorem memoized_sim (hf : Fuel d n 5) (hg : W.Good st h) (r : R) (b : Bool) (p q k : Nat) :
    Sim d (W.K h) (run W.Q n (.fn none n!"memoized_behaviour") [.cell W.a, encRule W.vn r, encKey parent, .bool b, .int p, .int q, encKey k] h)
      (memoizedBehaviour parent b q k st) := by
  cases n with
  | zero => exact Sim.zero hf
  | succ n =>
  rw [run]
  simp only [W.core.f_memoized_behaviour, Ast.memoized_behaviour]
  mini
  refine (ctx_connect hf.pred hg parent k).result ?_
  rintro _ h₁ st₁ ⟨rfl, hg₁, hfr₁⟩
  mini
  exact .ok ⟨rfl, hg₁, hfr₁⟩

theorem default_sim (hf : Fuel d n 4) (hr : W.Rule d n f g) (hg : W.Good st h) (r : R) :
    Sim d (W.K h) (run W.Q (n + 1) (.fn none n!"default_behaviour") [.cell W.u, encSource W.src, f, .cell W.a, encRule W.vn r, encKey parent, .int pos] h)
      (defaultBehaviour g r parent pos st) := by
  rw [run]
  simp only [W.core.f_default_behaviour, Ast.default_behaviour]
  mini
  refine (ctx_reserve (hf.le (by omega)) hg r).result ?_
  rintro _ h₁ ⟨k, st₁⟩ ⟨rfl, hg₁, hfr₁⟩
  mini
  refine (hr k pos st₁ h₁ hg₁).result ?_
  rintro _ h₂ ⟨b, q, st₂⟩ ⟨rfl, hg₂, hfr₂⟩
  have hL : (h₂ ++ [Val.ref W.a []])[h₂.length]? = some (.ref W.a []) := by simp
  have hg₂' := hg₂.push (.ref W.a [])
  mini [hg₂'.via hL, proj_0, proj_1]
  refine (ctx_create (hf.le (by omega)) hg₂' r b pos q k).pure ?_
  rintro _ h₃ ⟨rfl, hg₃, hfr₃⟩
  have hL₃ := hfr₃.loc hg₂ (Nat.le_refl _) hL
  mini [hg₃.via hL₃, proj_0, proj_1]
  refine (ctx_update (hf.le (by omega)) hg₃ k b pos q).result ?_
  rintro _ h₄ st₄ ⟨rfl, hg₄, hfr₄⟩
  have hL₄ := hfr₄.loc hg₂ (Nat.le_refl _) hL₃
  mini [hg₄.via hL₄]
  refine (ctx_connect (hf.le (by omega)) hg₄ parent k).result ?_
  rintro _ h₅ st₅ ⟨rfl, hg₅, hfr₅⟩
  mini
  exact .ok ⟨rfl, hg₅, ((hfr₁.trans hfr₂).push _).trans (hfr₃.trans (hfr₄.trans hfr₅))⟩

/-- `_var_name_kernel` -/
theorem var_kernel (hf : Fuel d n 5) (hr : W.Rule d n f g) (hg : W.Good st h) (r : R) :
    Sim d (W.K h) (run W.Q (n + 2) (.fn none n!"_var_name_kernel") [.cell W.u, encRule W.vn r, .cell W.a, encKey parent, encSource W.src, .int pos, f] h)
      (varNameKernel r g parent pos st) := by
  rw [run]
  simp only [W.core.f__var_name_kernel, Ast._var_name_kernel]
  obtain ⟨v, hc⟩ := hg.get
  mini [hc.borrow, hc.call W.core.f_BasicContext_check rfl]
  refine Sim.step (k := 2) (fun e => by have := hf e; omega) (fun m => ctx_check_run hc r pos) ?_
  unfold varNameKernel Cache.check
  cases st.cache.memo r pos with
  | none =>
    mini [Option.map, optV, W.core.tuple]
    exact default_sim (hf.le (by omega)) hr hg r
  | some x =>
    obtain ⟨b, q, k⟩ := x
    mini [Option.map, optV, encMemo, W.core.tuple]
    exact memoized_sim (fun e => Nat.le_succ_of_le (hf e)) hg r b pos q k

theorem convert_loop {step : Val → Heap → Res Val} {L : Nat} (hs : ∀ (r : R) (s : List R) (h : Heap), h[L]? = some (.set (s.map (encRule W.vn))) →
      ∃ v, step (encRule W.vn r) h = .ok v (h.set L (.set ((if s.contains r then s else s ++ [r]).map (encRule W.vn))))) :
    ∀ (l s : List R) (h : Heap), h[L]? = some (.set (s.map (encRule W.vn))) → forN step (l.map (encRule W.vn)) h =
      .ok .unit (h.set L (.set ((l.foldl (fun s r => if s.contains r then s else s ++ [r]) s).map (encRule W.vn))))
  | [], s, h, e => by
    obtain ⟨hl, e⟩ := List.getElem?_eq_some_iff.mp e
    simp only [List.map_nil, forN, List.foldl_nil, ← e, List.set_getElem_self]
  | r :: l, s, h, e => by
    obtain ⟨v, hv⟩ := hs r s h e
    have hl := (List.getElem?_eq_some_iff.mp e).1
    simp only [List.map_cons, forN, hv, List.foldl_cons]
    rw [convert_loop hs l (if s.contains r then s else s ++ [r]) _ (by simp [hl]), List.set_set]

theorem convert_run (l : List R) : run W.Q (n + 1) (.fn none n!"convert_vec_to_btree_set") [.vec (l.map (encRule W.vn))] h =
    .ok (.set ((toBTreeSet l).map (encRule W.vn))) (h ++ [.set ((toBTreeSet l).map (encRule W.vn))]) := by
  rw [run]
  simp only [W.core.f_convert_vec_to_btree_set, Ast.convert_vec_to_btree_set]
  mini [elements]
  rw [convert_loop (W := W) (L := h.length) ?_ l []]
  · mini
    rw [load_loc (v := .set ((toBTreeSet l).map (encRule W.vn))) (by simp [toBTreeSet])]
    simp [toBTreeSet, Res.result]
  · simp
  · intro r s h' e
    refine ⟨.unit, ?_⟩
    mini [load_rule, follow_rule, callMethod_lib (place_root e) (by intros; nofun) (by intros; nofun), store_loc e, memV_rule W.inj]
    congr 3
    split <;> simp

/-- `should_go_into_growth_function` -/
theorem should_sim (hf : Fuel d n 3) (hg : W.Good st h) (r : R) :
    Sim d (fun v h' x => v = .tuple [.bool x.1, encActive W.vn x.2.1] ∧ W.Good x.2.2 h' ∧ W.Frame h h')
      (run W.Q n (.fn none n!"should_go_into_growth_function") [encRule W.vn r, .cell W.a, .int pos] h) (shouldGrow r pos st) := by
  cases n with
  | zero => exact Sim.zero hf
  | succ n =>
  rw [run]
  simp only [W.core.f_should_go_into_growth_function, Ast.should_go_into_growth_function]
  have hf' : Fuel d n 2 := hf.pred
  have hL : (h ++ [Val.ref W.a []])[h.length]? = some (.ref W.a []) := by simp
  have hg₁ := hg.push (.ref W.a [])
  have hfr₁ := (World.Frame.rfl' W (h := h)).push (.ref W.a [])
  obtain ⟨v, hc⟩ := hg₁.get
  have act {k : Val → Heap → Res Val} {β : Type} {K : Val → Heap → β → Prop} {o : Out β}
      (hk : Sim d K (k (encActive W.vn st.cache.active) (h ++ [Val.ref W.a []])).result o) :
      Sim d K ((callMethod W.Q (run W.Q n) n!"get_current_active_lr_position" (.ref h.length []) [] (h ++ [Val.ref W.a []])).bind k).result o := by
    rw [hg₁.via hL, hc.callMut W.core.f_BasicContext_get_current_active_lr_position rfl]
    exact Sim.step hf' (fun m => ctx_active_run hc) hk
  have setA (x : Option (R × Nat)) {k : Val → Heap → Res Val}
      (hk : ∀ h' st', W.Good st' h' → W.Frame h h' → st' = st.setActive (some (r, pos)) → (k .unit h').result = .ok (.tuple [.bool true, encActive W.vn x]) h') :
      Sim d (fun v h' x => v = .tuple [.bool x.1, encActive W.vn x.2.1] ∧ W.Good x.2.2 h' ∧ W.Frame h h')
        ((callMethod W.Q (run W.Q n) n!"set_current_active_lr_position" (.ref h.length []) [.some (.tuple [encRule W.vn r, .int pos])]
          (h ++ [Val.ref W.a []])).bind k).result (.ok (true, x, st.setActive (some (r, pos)))) := by
    rw [hg₁.via hL]
    refine (ctx_set_active hf' hg₁ (some (r, pos))).pure ?_
    rintro _ h' ⟨rfl, hg', hfr⟩
    rw [hk h' _ hg' (hfr₁.trans hfr) rfl]
    exact .ok ⟨rfl, hg', hfr₁.trans hfr⟩
  mini
  refine act ?_
  unfold shouldGrow
  cases ha : st.cache.active with
  | none =>
    mini [encActive]
    refine act ?_
    mini [encActive, ha]
    refine setA none ?_
    intros
    mini
    rfl
  | some lr =>
    mini [encActive]
    rw [hg₁.via hL, hc.callMut W.core.f_BasicContext_check_head rfl]
    refine Sim.step hf' (fun m => ctx_check_head_run hc r pos) ?_
    unfold Cache.checkHead
    cases st.cache.heads r pos with
    | some hd =>
      mini [Option.map, optV]
      exact .ok ⟨rfl, hg₁, hfr₁⟩
    | none =>
      mini [Option.map, optV]
      rw [hg₁.via hL, hc.callMut W.core.f_BasicContext_rule_in_involved_set rfl]
      refine Sim.result (K := fun v h' b => v = .bool b ∧ h' = h ++ [Val.ref W.a []]) ?_ ?_
      · refine Sim.runs hf' (fun m => ctx_involved_run hc lr r) (Sim.ofOut ?_ ?_)
        · unfold Cache.ruleInInvolvedSet; split <;> nofun
        · exact fun x _ => ⟨_, _, rfl, rfl, rfl⟩
      · rintro _ _ b ⟨rfl, rfl⟩
        cases b <;> mini
        · refine act ?_
          mini [encActive, ha]
          refine setA (some lr) ?_
          intros
          mini
          rfl
        · exact .ok ⟨rfl, hg₁, hfr₁⟩

/-- The body of the loop of `_var_name_kernel_growth_function`. -/
def growthBody : Ex := (.block (.exprS (.meth (.meth (.path [n!"context"]) n!"borrow_mut" .nil) n!"reinitialize_eval_set" (.cons (.path
      [n!"rule"]) (.cons (.path [n!"position"]) .nil)))
    (.exprS (.assign (.path [n!"result"]) (.call (.path [n!"func"]) (.cons (.path [n!"user_state"]) (.cons (.path [n!"current_key"]) (.cons
      (.path [n!"context"]) (.cons (.path [n!"source"]) (.cons (.path [n!"position"]) .nil)))))))
    (.letS (.var n!"memo_result") false (.meth (.meth (.path [n!"context"]) n!"borrow_mut" .nil) n!"check" (.cons (.path [n!"rule"]) (.cons
      (.path [n!"position"]) .nil)))
    (.exprS (.mtch (.path [n!"memo_result"]) (.cons .none (.block .nil) (.cons (.some n!"memo_result") (.block (.exprS (.assign (.path
      [n!"current_key"]) (.field (.path [n!"memo_result"]) 2))
    (.exprS (.assign (.path [n!"result"]) (.tuple (.cons (.field (.path [n!"memo_result"]) 0) (.cons (.field (.path [n!"memo_result"]) 1)
      .nil))))
    .nil))) .nil)))
    (.exprS (.meth (.meth (.path [n!"context"]) n!"borrow_mut" .nil) n!"update_publisher_entry" (.cons (.path [n!"current_key"]) (.cons
      (.field (.path [n!"result"]) 0) (.cons (.path [n!"position"]) (.cons (.field (.path [n!"result"]) 1) .nil)))))
    (.exprS (.ite (.bin .or (.not (.field (.path [n!"result"]) 0)) (.bin .le (.field (.path [n!"result"]) 1) (.field (.path
      [n!"last_result"]) 1))) (.block (.exprS (.meth (.meth (.path [n!"context"]) n!"borrow_mut" .nil) n!"connect" (.cons (.path
      [n!"parent"]) (.cons (.path [n!"last_key"]) .nil)))
    (.exprS (.meth (.meth (.path [n!"context"]) n!"borrow_mut" .nil) n!"set_current_active_lr_position" (.cons (.path
      [n!"previous_active_lr_position"]) .nil))
    (.exprS (.meth (.meth (.path [n!"context"]) n!"borrow_mut" .nil) n!"create_cache_entry" (.cons (.path [n!"rule"]) (.cons (.field (.path
      [n!"last_result"]) 0) (.cons (.path [n!"position"]) (.cons (.field (.path [n!"last_result"]) 1) (.cons (.path [n!"last_key"])
      .nil))))))
    (.exprS .brk
    .nil))))) (.tuple .nil))
    (.exprS (.assign (.path [n!"last_result"]) (.path [n!"result"]))
    (.exprS (.assign (.path [n!"last_key"]) (.path [n!"current_key"]))
    (.exprS (.assign (.path [n!"current_key"]) (.meth (.meth (.path [n!"context"]) n!"borrow_mut" .nil) n!"reserve_publisher_entry" (.cons
      (.path [n!"rule"]) .nil)))
    .nil))))))))))

/-- The variables in the loop of `_var_name_kernel_growth_function`. -/
def growthEnv (W : World R U) (inv : Val) (r : R) (parent pos : Nat) (f : Val) (prev : Option (R × Nat)) (L : Nat) (lk ck : Nat) (s : Val) : Env :=
  [(n!"involved_btree", .val s), (n!"previous_active_lr_position", .val (encActive W.vn prev)), (n!"current_key", .loc ck), (n!"last_key", .loc lk),
    (n!"last_result", .loc (L + 1)), (n!"result", .loc L), (n!"last_lr_position", .val (encActive W.vn prev)), (n!"func", .val f), (n!"position", .val (.int pos)),
    (n!"source", .val (encSource W.src)), (n!"parent", .val (encKey parent)), (n!"context", .val (.cell W.a)), (n!"rule", .val (encRule W.vn r)),
    (n!"involved_set", .val inv), (n!"user_state", .val (.cell W.u))]

omit [DecidableEq R] in
theorem World.Frame.setLoc {h h₀ : Heap} (f : W.Frame h₀ h) {L : Nat} (hL : h₀.length ≤ L) (v : Val) : W.Frame h₀ (h.set L v) := f.set hL v

set_option hygiene false in
/-- The end of the growth. -/
macro "growth_done" : tactic => `(tactic| (
  refine (ctx_connect hf hg₅ parent kl).round ?_
  rintro _ h₆ st₆ ⟨rfl, hg₆, hfr₆⟩
  have e₁ := hfr₆.loc hg₀ (by omega) e₁
  have e₂ := hfr₆.loc hg₀ (by omega) e₂
  refine (ctx_set_active (hf.le (by omega)) hg₆ prev).pureRound ?_
  rintro _ h₇ ⟨rfl, hg₇, hfr₇⟩
  have e₁ := hfr₇.loc hg₀ (by omega) e₁
  have e₂ := hfr₇.loc hg₀ (by omega) e₂
  mini [load_loc e₂, loc_0 e₁, load_0 e₁, loc_1 e₁, load_1 e₁]
  refine (ctx_create (hf.le (by omega)) hg₇ r b pos q kl).pureRound ?_
  rintro _ h₈ ⟨rfl, hg₈, hfr₈⟩
  exact .ok ⟨rfl, hfr₈.loc hg₀ (by omega) e₁, hg₈, hfr.trans (hfr₆.trans (hfr₇.trans hfr₈))⟩))

set_option hygiene false in
/-- A round of the growth after the evaluation of the rule. -/
macro "growth_tail" B:term:max Q:term:max K:term:max : tactic => `(tactic| (
  rintro _ h₅ st₅ ⟨rfl, hg₅, hfr₅⟩
  have e₀ := hfr₅.loc hg₀ (by omega) e₀
  have e₁ := hfr₅.loc hg₀ (by omega) e₁
  have e₂ := hfr₅.loc hg₀ (by omega) e₂
  have e₃ := hfr₅.loc hg₀ (by omega) e₃
  have hfr := hfr.trans hfr₅
  have hB : $B = false ∨ ($B = true ∧ decide ($Q ≤ q) = true) ∨ ($B = true ∧ decide ($Q ≤ q) = false) := by
    cases $B:term <;> simp; omega
  rcases hB with hB | ⟨hB, hQ⟩ | ⟨hB, hQ⟩
  · subst hB
    mini [loc_0 e₀, load_0 e₀, loc_1 e₀, load_1 e₀, loc_0 e₁, load_0 e₁, loc_1 e₁, load_1 e₁, load_loc e₂, Bool.true_or]
    growth_done
  · subst hB
    mini [loc_0 e₀, load_0 e₀, loc_1 e₀, load_1 e₀, loc_0 e₁, load_0 e₁, loc_1 e₁, load_1 e₁, load_loc e₂, binop, hQ, Bool.or_true]
    growth_done
  · subst hB
    mini [loc_0 e₀, load_0 e₀, loc_1 e₀, load_1 e₀, loc_0 e₁, load_0 e₁, loc_1 e₁, load_1 e₁, load_loc e₀, load_loc e₂, binop, hQ, Bool.or_false, store_loc e₁]
    have hg₆ := hg₅.set (i := h₀.length + 1) (by have := hg₀.lt_a; omega) (by have := hg₀.lt_u; omega) (.tuple [.bool true, .int $Q])
    have hfr := hfr.set (show h₀.length ≤ h₀.length + 1 by omega) (.tuple [.bool true, .int $Q])
    have e₀ := set_other (i := h₀.length + 1) (w := .tuple [.bool true, .int $Q]) (by omega) e₀
    have e₂ := set_other (i := h₀.length + 1) (w := .tuple [.bool true, .int $Q]) (by omega) e₂
    have e₃ := set_other (i := h₀.length + 1) (w := .tuple [.bool true, .int $Q]) (by omega) e₃
    have e₁ := set_loc (.tuple [.bool true, .int $Q]) e₁
    generalize h₅.set (h₀.length + 1) (.tuple [.bool true, .int $Q]) = h₆ at *
    mini [load_loc e₃, store_loc e₂]
    have hg₆ := hg₆.set (i := lk) (by have := hg₀.lt_a; omega) (by have := hg₀.lt_u; omega) (encKey $K)
    have hfr := hfr.set (show h₀.length ≤ lk by omega) (encKey $K)
    have e₀ := set_other (i := lk) (w := encKey $K) (by omega) e₀
    have e₁ := set_other (i := lk) (w := encKey $K) (by omega) e₁
    have e₃ := set_other (i := lk) (w := encKey $K) (by omega) e₃
    have e₂ := set_loc (encKey $K) e₂
    generalize h₆.set lk (encKey $K) = h₇ at *
    refine (ctx_reserve (hf.le (by omega)) hg₆ r).round ?_
    rintro _ h₈ ⟨k₈, st₈⟩ ⟨rfl, hg₈, hfr₈⟩
    have e₀ := hfr₈.loc hg₀ (by omega) e₀
    have e₁ := hfr₈.loc hg₀ (by omega) e₁
    have e₂ := hfr₈.loc hg₀ (by omega) e₂
    have e₃ := hfr₈.loc hg₀ (by omega) e₃
    mini [store_loc e₃]
    exact growth_loop hf hr hg₀ hlk hck hstep hm' true $Q $K k₈ st₈ _ (hg₈.set (by have := hg₀.lt_a; omega) (by have := hg₀.lt_u; omega) _)
      ((hfr.trans hfr₈).set (by omega) _) ⟨_, set_other (by omega) e₀⟩ (set_other (by omega) e₁) (set_other (by omega) e₂) (set_loc _ e₃)))

theorem growth_loop {step : Heap → Res Val} {inv s : Val} {r : R} {prev : Option (R × Nat)} {h₀ : Heap} {lk ck : Nat} (hf : Fuel d n 4)
    (hr : W.Rule d n f g) (hg₀ : W.Good st h₀) (hlk : h₀.length + 1 < lk) (hck : lk < ck)
    (hstep : ∀ h, step h = ev W.Q (run W.Q n) n false growthBody (growthEnv W inv r parent pos f prev h₀.length lk ck s) h) :
    ∀ {k m : Nat}, Rounds d k m → ∀ (b : Bool) (q kl kc : Nat) (st : St R U) (h : Heap), W.Good st h → W.Frame h₀ h →
      (∃ v, h[h₀.length]? = some v) → h[h₀.length + 1]? = some (.tuple [.bool b, .int q]) → h[lk]? = some (encKey kl) → h[ck]? = some (encKey kc) →
    Sim d (fun v h' x => v = .unit ∧ h'[h₀.length + 1]? = some (.tuple [.bool x.1, .int x.2.1]) ∧ W.Good x.2.2 h' ∧ W.Frame h₀ h') (loopN step k h)
      (growthLoop r g parent pos prev m (b, q) kl kc st)
  | 0, m, hm, b, q, kl, kc, st, h, hg, hfr, e₀, e₁, e₂, e₃ => by
    cases d with
    | sound => exact .oofL rfl
    | complete => obtain rfl : m = 0 := Nat.le_zero.mp hm; exact .oofR rfl
  | k + 1, 0, hm, b, q, kl, kc, st, h, hg, hfr, e₀, e₁, e₂, e₃ => by
    cases d with
    | sound => exact absurd hm (by simp [Rounds])
    | complete => exact .oofR rfl
  | k + 1, m + 1, hm, b, q, kl, kc, st, h, hg, hfr, e₀, e₁, e₂, e₃ => by
    have hm' : Rounds d k m := by cases d <;> exact Nat.le_of_succ_le_succ hm
    rw [loopN_round, hstep]
    unfold growthLoop growthBody growthEnv
    mini
    refine (ctx_reinit (hf.le (by omega)) hg r pos).round ?_
    rintro _ h₁ st₁ ⟨rfl, hg₁, hfr₁⟩
    obtain ⟨v₀, e₀⟩ := e₀
    have e₀ := hfr₁.loc hg₀ (by omega) e₀
    have e₁ := hfr₁.loc hg₀ (by omega) e₁
    have e₂ := hfr₁.loc hg₀ (by omega) e₂
    have e₃ := hfr₁.loc hg₀ (by omega) e₃
    have hfr := hfr.trans hfr₁
    mini [load_loc e₃]
    refine (hr kc pos st₁ h₁ hg₁).round ?_
    rintro _ h₂ ⟨b', q', st₂⟩ ⟨rfl, hg₂, hfr₂⟩
    have e₀ := hfr₂.loc hg₀ (by omega) e₀
    have e₁ := hfr₂.loc hg₀ (by omega) e₁
    have e₂ := hfr₂.loc hg₀ (by omega) e₂
    have e₃ := hfr₂.loc hg₀ (by omega) e₃
    have hfr := hfr.trans hfr₂
    mini [store_loc e₀]
    have hg₃ := hg₂.set (i := h₀.length) (by have := hg₀.lt_a; omega) (by have := hg₀.lt_u; omega) (.tuple [.bool b', .int q'])
    have hfr := hfr.set (Nat.le_refl _) (.tuple [.bool b', .int q'])
    have e₁ := set_other (i := h₀.length) (w := .tuple [.bool b', .int q']) (by omega) e₁
    have e₂ := set_other (i := h₀.length) (w := .tuple [.bool b', .int q']) (by omega) e₂
    have e₃ := set_other (i := h₀.length) (w := .tuple [.bool b', .int q']) (by omega) e₃
    have e₀ := set_loc (.tuple [.bool b', .int q']) e₀
    generalize h₂.set h₀.length (.tuple [.bool b', .int q']) = h₃ at *
    obtain ⟨v, hc⟩ := hg₃.get
    mini [hc.callMut W.core.f_BasicContext_check rfl]
    refine Sim.stepRound (k := 2) (hf.le (by omega)) (fun m => ctx_check_run hc r pos) ?_
    unfold growthPick Cache.check
    cases st₂.cache.memo r pos with
    | none =>
      mini [Option.map, optV, load_loc e₃, loc_0 e₀, load_0 e₀, loc_1 e₀, load_1 e₀]
      refine (ctx_update (hf.le (by omega)) hg₃ kc b' pos q').round ?_
      growth_tail b' q' kc
    | some x =>
      obtain ⟨mb, mq, mk⟩ := x
      have hg₄ := (hg₃.set (i := ck) (by have := hg₀.lt_a; omega) (by have := hg₀.lt_u; omega) (encKey mk)).set (i := h₀.length)
        (by have := hg₀.lt_a; omega) (by have := hg₀.lt_u; omega) (.tuple [.bool mb, .int mq])
      have hfr := (hfr.set (show h₀.length ≤ ck by omega) (encKey mk)).set (Nat.le_refl _) (.tuple [.bool mb, .int mq])
      have f₀ := set_other (i := ck) (w := encKey mk) (by omega) e₀
      mini [Option.map, optV, encMemo, proj_0, proj_1, proj_2, store_loc e₃, store_loc f₀, load_key]
      have f₁ := set_other (i := h₀.length) (w := .tuple [.bool mb, .int mq]) (by omega) (set_other (i := ck) (w := encKey mk) (by omega) e₁)
      have f₂ := set_other (i := h₀.length) (w := .tuple [.bool mb, .int mq]) (by omega) (set_other (i := ck) (w := encKey mk) (by omega) e₂)
      have f₃ := set_other (i := h₀.length) (w := .tuple [.bool mb, .int mq]) (by omega) (set_loc (encKey mk) e₃)
      have f₀ := set_loc (.tuple [.bool mb, .int mq]) f₀
      generalize (h₃.set ck (encKey mk)).set h₀.length (.tuple [.bool mb, .int mq]) = h₄ at *
      mini [load_loc f₃, loc_0 f₀, load_0 f₀, loc_1 f₀, load_1 f₀]
      refine (ctx_update (hf.le (by omega)) hg₄ mk mb pos mq).round ?_
      have e₀ := f₀
      have e₁ := f₁
      have e₂ := f₂
      have e₃ := f₃
      growth_tail mb mq mk

theorem growth_sim {m : Nat} (hf : Fuel d n 4) (hm : Rounds d n m) (hr : W.Rule d n f g) (hg : W.Good st h) (r : R) (l : List R) (prev : Option (R × Nat)) :
    Sim d (W.K h) (run W.Q (n + 1) (.fn none n!"_var_name_kernel_growth_function")
        [.cell W.u, .vec (l.map (encRule W.vn)), encRule W.vn r, .cell W.a, encKey parent, encSource W.src, .int pos, f, encActive W.vn prev] h)
      (growthFunction m l r g prev parent pos st) := by
  rw [run]
  simp only [W.core.f__var_name_kernel_growth_function, Ast._var_name_kernel_growth_function]
  have lt_a := hg.lt_a
  have lt_u := hg.lt_u
  have hgᵢ := (hg.push .uninit).push (.tuple [.bool false, .int pos])
  have hfr := ((World.Frame.rfl' W (h := h)).push .uninit).push (.tuple [.bool false, .int pos])
  have e₀ : (h ++ [Val.uninit] ++ [Val.tuple [.bool false, .int pos]])[h.length]? = some .uninit := by simp
  have e₁ : (h ++ [Val.uninit] ++ [Val.tuple [.bool false, .int pos]])[h.length + 1]? = some (.tuple [.bool false, .int pos]) := by simp
  mini
  refine (ctx_reserve (hf.le (by omega)) hgᵢ r).result ?_
  rintro _ h₁ ⟨k₁, st₁⟩ ⟨rfl, hg₁, hfr₁⟩
  have e₀ := hfr₁.loc hg (by omega) e₀
  have e₁ := hfr₁.loc hg (by omega) e₁
  have hlk := (List.getElem?_eq_some_iff.mp e₁).1
  have hfr := (hfr.trans hfr₁).push (encKey k₁)
  have hg₁ := hg₁.push (encKey k₁)
  have e₂ : (h₁ ++ [encKey k₁])[h₁.length]? = some (encKey k₁) := by simp
  have e₀ : (h₁ ++ [encKey k₁])[h.length]? = some .uninit := by rw [List.getElem?_append_left (by omega)]; exact e₀
  have e₁ : (h₁ ++ [encKey k₁])[h.length + 1]? = some (.tuple [.bool false, .int pos]) := by rw [List.getElem?_append_left (by omega)]; exact e₁
  mini [load_loc e₂]
  refine (ctx_update (hf.le (by omega)) hg₁ k₁ false 0 0).result ?_
  rintro _ h₂ st₂ ⟨rfl, hg₂, hfr₂⟩
  have e₀ := hfr₂.loc hg (by omega) e₀
  have e₁ := hfr₂.loc hg (by omega) e₁
  have e₂ := hfr₂.loc hg (by omega) e₂
  have hfr := hfr.trans hfr₂
  refine (ctx_reserve (hf.le (by omega)) hg₂ r).result ?_
  rintro _ h₃ ⟨k₃, st₃⟩ ⟨rfl, hg₃, hfr₃⟩
  have e₀ := hfr₃.loc hg (by omega) e₀
  have e₁ := hfr₃.loc hg (by omega) e₁
  have e₂ := hfr₃.loc hg (by omega) e₂
  have hck := (List.getElem?_eq_some_iff.mp e₂).1
  have hfr := (hfr.trans hfr₃).push (encKey k₃)
  have hg₃ := hg₃.push (encKey k₃)
  have e₃ : (h₃ ++ [encKey k₃])[h₃.length]? = some (encKey k₃) := by simp
  have e₀ : (h₃ ++ [encKey k₃])[h.length]? = some .uninit := by rw [List.getElem?_append_left (by omega)]; exact e₀
  have e₁ : (h₃ ++ [encKey k₃])[h.length + 1]? = some (.tuple [.bool false, .int pos]) := by rw [List.getElem?_append_left (by omega)]; exact e₁
  have e₂ : (h₃ ++ [encKey k₃])[h₁.length]? = some (encKey k₁) := by rw [List.getElem?_append_left (by omega)]; exact e₂
  generalize h₃ ++ [encKey k₃] = h₄ at *
  mini [W.core.tuple]
  refine Sim.step (k := 1) (hf.le (by omega)) (fun m => convert_run l) ?_
  generalize hs : Val.set ((toBTreeSet l).map (encRule W.vn)) = s
  have hg₅ := hg₃.push s
  have hfr := hfr.push s
  have lt := (List.getElem?_eq_some_iff.mp e₃).1
  have e₀ : (h₄ ++ [s])[h.length]? = some .uninit := by rw [List.getElem?_append_left (by omega)]; exact e₀
  have e₁ : (h₄ ++ [s])[h.length + 1]? = some (.tuple [.bool false, .int pos]) := by rw [List.getElem?_append_left (by omega)]; exact e₁
  have e₂ : (h₄ ++ [s])[h₁.length]? = some (encKey k₁) := by rw [List.getElem?_append_left (by omega)]; exact e₂
  have e₃ : (h₄ ++ [s])[h₃.length]? = some (encKey k₃) := by rw [List.getElem?_append_left (by omega)]; exact e₃
  generalize h₄ ++ [s] = h₅ at *
  subst hs
  refine (ctx_set_head (hf.le (by omega)) hg₅ pos r (toBTreeSet l)).pure ?_
  rintro _ h₆ ⟨rfl, hg₆, hfr₆⟩
  have e₀ := hfr₆.loc hg (by omega) e₀
  have e₁ := hfr₆.loc hg (by omega) e₁
  have e₂ := hfr₆.loc hg (by omega) e₂
  have e₃ := hfr₆.loc hg (by omega) e₃
  refine Sim.result' (growth_loop (inv := .vec (l.map (encRule W.vn))) (s := .set ((toBTreeSet l).map (encRule W.vn))) hf hr hg ?_ ?_ ?_ hm false pos k₁ k₃ _ _ hg₆ (hfr.trans hfr₆) ⟨_, e₀⟩ e₁ e₂ e₃) ?_
  · omega
  · omega
  · intro h'
    unfold growthBody growthEnv
    mini
    rw [show (h ++ [Val.uninit]).length = h.length + 1 by simp]
  · rintro _ h₇ ⟨b, q, st₇⟩ ⟨rfl, e₁, hg₇, hfr₇⟩
    rw [show (h ++ [Val.uninit]).length = h.length + 1 by simp]
    mini [load_loc e₁]
    exact .ok ⟨rfl, hg₇, hfr₇⟩

/-- `_var_name_kernel_indirect_left_recursion` -/
theorem lr_kernel {m : Nat} (hf : Fuel d n 4) (hm : Rounds d n m) (hr : W.Rule d n f g) (hr' : W.Rule d (n + 1) f g) (hg : W.Good st h) (r : R) (l : List R) :
    Sim d (W.K h) (run W.Q (n + 2) (.fn none n!"_var_name_kernel_indirect_left_recursion")
        [.cell W.u, .vec (l.map (encRule W.vn)), encRule W.vn r, .cell W.a, encKey parent, encSource W.src, .int pos, f] h)
      (varNameLRKernel m l r g parent pos st) := by
  have hf' : Fuel d (n + 1) 4 := fun e => Nat.le_succ_of_le (hf e)
  rw [run]
  simp only [W.core.f__var_name_kernel_indirect_left_recursion, Ast._var_name_kernel_indirect_left_recursion]
  mini [W.core.tuple]
  refine (should_sim (hf'.le (by omega)) hg r).result ?_
  rintro _ h₁ ⟨b, lr, st₁⟩ ⟨rfl, hg₁, hfr₁⟩
  cases b
  · mini [proj_0, proj_1]
    unfold lrInner
    obtain ⟨v, hc⟩ := hg₁.get
    simp only [hc.borrow, Res.bind_ok, hc.call W.core.f_BasicContext_get_current_active_lr_position rfl]
    refine Sim.step (k := 2) (hf'.le (by omega)) (fun m => ctx_active_run hc) ?_
    cases ha : st₁.cache.active with
    | none =>
      mini [encActive]
      exact .panic
    | some act =>
      mini [encActive]
      simp only [hc.borrow, Res.bind_ok, hc.call W.core.f_BasicContext_rule_in_eval_set rfl]
      refine Sim.result (K := fun v h' b => v = .bool b ∧ h' = h₁) ?_ ?_
      · refine Sim.runs (k := 2) (hf'.le (by omega)) (fun m => ctx_eval_run hc act r) (Sim.ofOut ?_ ?_)
        · unfold Cache.ruleInEvalSet; split <;> nofun
        · exact fun x _ => ⟨_, _, rfl, rfl, rfl⟩
      rintro _ _ b ⟨rfl, rfl⟩
      cases b
      · mini
        simp only [hc.borrow, Res.bind_ok, hc.call W.core.f_BasicContext_check rfl]
        refine Sim.step (k := 2) (hf'.le (by omega)) (fun m => ctx_check_run hc r pos) ?_
        unfold Cache.check
        cases st₁.cache.memo r pos with
        | none =>
          mini [Option.map, optV]
          exact .ok ⟨rfl, hg₁, hfr₁⟩
        | some x =>
          obtain ⟨mb, mq, mk⟩ := x
          mini [Option.map, optV, encMemo, proj_0, proj_1, proj_2, load_key]
          refine (ctx_connect_if hf' hg₁ parent mk).result ?_
          rintro _ h₂ st₂ ⟨rfl, hg₂, hfr₂⟩
          mini [proj_0, proj_1]
          exact .ok ⟨rfl, hg₂, hfr₁.trans hfr₂⟩
      · mini
        refine (ctx_reserve (hf'.le (by omega)) hg₁ r).result ?_
        rintro _ h₂ ⟨k₂, st₂⟩ ⟨rfl, hg₂, hfr₂⟩
        refine (ctx_remove (hf'.le (by omega)) hg₂ act r).result ?_
        rintro _ h₃ st₃ ⟨rfl, hg₃, hfr₃⟩
        refine (hr' k₂ pos st₃ h₃ hg₃).result ?_
        rintro _ h₄ ⟨b, q, st₄⟩ ⟨rfl, hg₄, hfr₄⟩
        mini [proj_0, proj_1]
        refine (ctx_update (hf'.le (by omega)) hg₄ k₂ b pos q).result ?_
        rintro _ h₅ st₅ ⟨rfl, hg₅, hfr₅⟩
        refine (ctx_create (hf'.le (by omega)) hg₅ r b pos q k₂).pure ?_
        rintro _ h₆ ⟨rfl, hg₆, hfr₆⟩
        refine (ctx_connect hf' hg₆ parent k₂).result ?_
        rintro _ h₇ st₇ ⟨rfl, hg₇, hfr₇⟩
        mini
        exact .ok ⟨rfl, hg₇, hfr₁.trans (hfr₂.trans (hfr₃.trans (hfr₄.trans (hfr₅.trans (hfr₆.trans hfr₇)))))⟩
  · mini [proj_0, proj_1, W.core.tuple]
    have ht : load (encActive W.vn lr) h₁ = .ok (encActive W.vn lr) h₁ := by cases lr <;> rfl
    simp only [ht, Res.bind_ok]
    rw [run_result]
    refine (growth_sim hf hm hr hg₁ r l lr).mono ?_
    rintro v h' x ⟨rfl, hg', hfr'⟩
    exact ⟨rfl, hg', hfr₁.trans hfr'⟩
end
end PP.Mini
