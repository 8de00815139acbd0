import Verif.Lemmas.Mini.CacheFns

/-! # context.rs does what Model/Context says -/
namespace PP.Mini
attribute [local congr] Res.bind_congr loopN_congr forN_congr

section
variable {R U : Type} {W : World R U} {d : Dir} {n : Nat} {st : St R U} {h : Heap}

theorem World.Frame.upd {h h' : Heap} (f : W.Frame h h') (p : List Step) (w : Val) : W.Frame h (upd h' W.a p w) where
  le := by rw [upd_length]; exact f.le
  eq i hi ha hu := by rw [upd_other ha]; exact f.eq i hi ha hu

theorem pub_step (vn : R → Name) (l l' : List (Val × Val)) (act : Option (R × Nat)) (p : Publisher R) :
    stepAt (ctxVal vn l l' act p) (.fld n!"publisher") = some (encPub vn p) := rfl
theorem cache_step (vn : R → Name) (l l' : List (Val × Val)) (act : Option (R × Nat)) (p : Publisher R) :
    stepAt (ctxVal vn l l' act p) (.fld n!"cache") = some (cacheVal vn l l' act) := rfl

theorem place_root {a : Nat} {v : Val} (e : h[a]? = some v) : loadV h (.ref a []) = some v := by simp [loadV, e, getAt_nil]

theorem World.Good.setPub (hg : W.Good st h) (t : Publisher R) (ht : t.nodes.length ≤ 4294967296) :
    W.Good { st with pub := t } (upd h W.a ([] ++ [.fld n!"publisher"]) (encPub W.vn t)) where
  ctx := by
    obtain ⟨l, l', e, m, m'⟩ := hg.ctx
    have hp := place_root e
    refine ⟨l, l', ?_, m, m'⟩
    rw [upd_step hp (pub_step _ _ _ _ _), upd_root hp]
    rfl
  user := let ⟨w, e, hw⟩ := hg.user; ⟨w, by rw [upd_other W.ne.symm]; exact e, hw⟩
  len := ht

theorem World.Good.setCache (hg : W.Good st h) {l l' : List (Val × Val)} (c : Cache R) (hl : MapRel W.vn encMemo l c.memo)
    (hl' : MapRel W.vn (encHead W.vn) l' c.heads) :
    W.Good { st with cache := c } (upd h W.a ([] ++ [.fld n!"cache"]) (cacheVal W.vn l l' c.active)) where
  ctx := by
    obtain ⟨k, k', e, m, m'⟩ := hg.ctx
    have hp := place_root e
    refine ⟨l, l', ?_, hl, hl'⟩
    rw [upd_step hp (cache_step _ _ _ _ _), upd_root hp]
    rfl
  user := let ⟨w, e, hw⟩ := hg.user; ⟨w, by rw [upd_other W.ne.symm]; exact e, hw⟩
  len := hg.len

/-- What a function of the context that changes it gives. -/
def World.KC (W : World R U) (h : Heap) (v : Val) (h' : Heap) (st : St R U) : Prop := v = .unit ∧ W.Good st h' ∧ W.Frame h h'

theorem modify_length {t t' : Publisher R} {k f} (h : t.modify k f = .ok t') : t'.nodes.length = t.nodes.length := by
  unfold Publisher.modify at h; split at h
  · simp at h
  · cases h; simp

theorem ctx_reserve (hf : Fuel d n 2) (hg : W.Good st h) (r : R) :
    Sim d (fun v h' x => v = encKey x.1 ∧ W.Good x.2 h' ∧ W.Frame h h')
      (callMethod W.Q (run W.Q n) n!"reserve_publisher_entry" (.ref W.a []) [encRule W.vn r] h) (st.reserve r) := by
  obtain ⟨l, l', e, m, m'⟩ := hg.ctx
  have hp := place_root e
  have hpp := loadV_step hp (pub_step _ _ _ _ _)
  rw [callMethod_mut hp W.core.f_BasicContext_reserve_publisher_entry rfl]
  refine Sim.fuel hf fun m => ?_
  rw [run]
  simp only [W.core.f_BasicContext_reserve_publisher_entry, Ast.BasicContext.reserve_publisher_entry]
  mini [project_place hp (by intros; nofun), callMethod_mut hpp W.core.f_BasicPublisher_add_node rfl, add_node_run hpp]
  unfold St.reserve Publisher.addNode
  split
  · exact .ok ⟨rfl, hg.setPub _ (by simp; omega), (World.Frame.rfl' W).upd _ _⟩
  · exact .panic

theorem ctx_connect (hf : Fuel d n 4) (hg : W.Good st h) (i j : Nat) :
    Sim d (W.KC h) (callMethod W.Q (run W.Q n) n!"connect" (.ref W.a []) [encKey i, encKey j] h) (st.connect i j) := by
  obtain ⟨l, l', e, m, m'⟩ := hg.ctx
  have hp := place_root e
  have hpp := loadV_step hp (pub_step _ _ _ _ _)
  rw [callMethod_mut hp W.core.f_BasicContext_connect rfl]
  refine Sim.fuel hf fun m => ?_
  rw [run]
  simp only [W.core.f_BasicContext_connect, Ast.BasicContext.connect]
  mini [project_place hp (by intros; nofun), callMethod_mut hpp W.core.f_BasicPublisher_connect rfl, connect_run hpp]
  unfold St.connect
  cases hc : st.pub.connect i j with
  | oof => exact absurd hc (connect_ne _ _ _)
  | panic => exact .panic
  | ok t =>
    refine .ok ⟨rfl, hg.setPub _ ?_, (World.Frame.rfl' W).upd _ _⟩
    unfold Publisher.connect at hc
    split at hc
    · simp at hc
    · rw [modify_length hc]; exact hg.len

theorem ctx_connect_if (hf : Fuel d n 4) (hg : W.Good st h) (i j : Nat) :
    Sim d (W.KC h) (callMethod W.Q (run W.Q n) n!"connect_if_not_connected" (.ref W.a []) [encKey i, encKey j] h) (st.connectIfNotConnected i j) := by
  obtain ⟨l, l', e, m, m'⟩ := hg.ctx
  have hp := place_root e
  have hpp := loadV_step hp (pub_step _ _ _ _ _)
  rw [callMethod_mut hp W.core.f_BasicContext_connect_if_not_connected rfl]
  refine Sim.fuel hf fun m => ?_
  rw [run]
  simp only [W.core.f_BasicContext_connect_if_not_connected, Ast.BasicContext.connect_if_not_connected]
  mini [project_place hp (by intros; nofun), callMethod_mut hpp W.core.f_BasicPublisher_connect_if_not_connected rfl, connect_if_run hpp]
  unfold St.connectIfNotConnected
  cases hc : st.pub.connectIfNotConnected i j with
  | oof => exact absurd hc (modify_ne _ _ _)
  | panic => exact .panic
  | ok t =>
    refine .ok ⟨rfl, hg.setPub _ ?_, (World.Frame.rfl' W).upd _ _⟩
    rw [modify_length hc]; exact hg.len

theorem ctx_update (hf : Fuel d n 3) (hg : W.Good st h) (k : Nat) (b : Bool) (x y : Nat) :
    Sim d (W.KC h) (callMethod W.Q (run W.Q n) n!"update_publisher_entry" (.ref W.a []) [encKey k, .bool b, .int x, .int y] h) (st.updateEntry k b x y) := by
  obtain ⟨l, l', e, m, m'⟩ := hg.ctx
  have hp := place_root e
  have hpp := loadV_step hp (pub_step _ _ _ _ _)
  rw [callMethod_mut hp W.core.f_BasicContext_update_publisher_entry rfl]
  refine Sim.fuel hf fun m => ?_
  rw [run]
  simp only [W.core.f_BasicContext_update_publisher_entry, Ast.BasicContext.update_publisher_entry]
  mini [project_place hp (by intros; nofun), callMethod_mut hpp W.core.f_BasicPublisher_set_node_result rfl, set_result_run hpp]
  unfold St.updateEntry
  cases hc : st.pub.setNodeResult k b with
  | oof => exact absurd hc (modify_ne _ _ _)
  | panic => exact .panic
  | ok t =>
    have hg₁ := hg.setPub t (by rw [modify_length hc]; exact hg.len)
    have f₁ := (World.Frame.rfl' (h := h) W).upd ([] ++ [.fld n!"publisher"]) (encPub W.vn t)
    have u₁ : ∀ t', upd (upd h W.a ([] ++ [.fld n!"publisher"]) (encPub W.vn t)) W.a ([] ++ [.fld n!"publisher"]) (encPub W.vn t') =
      upd h W.a ([] ++ [.fld n!"publisher"]) (encPub W.vn t') := fun _ => upd_upd hpp
    have hpp₁ := load_upd (w := encPub W.vn t) hpp
    simp only [outRes]
    obtain ⟨l, l', e, m, m'⟩ := hg₁.ctx
    have hp := place_root e
    mini [project_place hp (by intros; nofun), callMethod_mut hpp₁ W.core.f_BasicPublisher_set_node_start_position rfl, set_start_run hpp₁]
    simp only [Out.bind_ok]
    cases hc₁ : t.setNodeStart k x with
    | oof => exact absurd hc₁ (modify_ne _ _ _)
    | panic => exact .panic
    | ok t₁ =>
      have l₁ : t₁.nodes.length ≤ 4294967296 := by rw [modify_length hc₁, modify_length hc]; exact hg.len
      have hg₂ := hg.setPub t₁ l₁
      have hpp₂ := load_upd (w := encPub W.vn t₁) hpp
      simp only [outRes, u₁]
      obtain ⟨l, l', e, m, m'⟩ := hg₂.ctx
      have hp := place_root e
      mini [project_place hp (by intros; nofun), callMethod_mut hpp₂ W.core.f_BasicPublisher_set_node_end_position rfl, set_stop_run hpp₂]
      simp only [Out.bind_ok]
      cases hc₂ : t₁.setNodeStop k y with
      | oof => exact absurd hc₂ (modify_ne _ _ _)
      | panic => exact .panic
      | ok t₂ =>
        simp only [outRes, upd_upd hpp]
        exact .ok ⟨rfl, hg.setPub _ (by rw [modify_length hc₂]; exact l₁), (World.Frame.rfl' W).upd _ _⟩

theorem ctx_create [DecidableEq R] (hf : Fuel d n 2) (hg : W.Good st h) (r : R) (b : Bool) (x y k : Nat) :
    Sim d (W.KC h) (callMethod W.Q (run W.Q n) n!"create_cache_entry" (.ref W.a []) [encRule W.vn r, .bool b, .int x, .int y, encKey k] h)
      (.ok (st.createCacheEntry r b x y k)) := by
  obtain ⟨l, l', e, m, m'⟩ := hg.ctx
  have hp := place_root e
  have hpp := loadV_step hp (cache_step _ _ _ _ _)
  rw [callMethod_mut hp W.core.f_BasicContext_create_cache_entry rfl]
  refine Sim.fuel hf fun _ => ?_
  rw [run]
  simp only [W.core.f_BasicContext_create_cache_entry, Ast.BasicContext.create_cache_entry]
  mini [project_place hp (by intros; nofun), callMethod_mut hpp W.core.f_BasicCache_insert rfl, cache_insert hpp]
  exact .ok ⟨rfl, hg.setCache (st.cache.insert r b x y k) (m.insert W.inj r x (b, y, k)) m', (World.Frame.rfl' W).upd _ _⟩

theorem ctx_set_active [DecidableEq R] (hf : Fuel d n 2) (hg : W.Good st h) (act : Option (R × Nat)) :
    Sim d (W.KC h) (callMethod W.Q (run W.Q n) n!"set_current_active_lr_position" (.ref W.a []) [encActive W.vn act] h) (.ok (st.setActive act)) := by
  obtain ⟨l, l', e, m, m'⟩ := hg.ctx
  have hp := place_root e
  have hpp := loadV_step hp (cache_step _ _ _ _ _)
  rw [callMethod_mut hp W.core.f_BasicContext_set_current_active_lr_position rfl]
  refine Sim.fuel hf fun _ => ?_
  rw [run]
  simp only [W.core.f_BasicContext_set_current_active_lr_position, Ast.BasicContext.set_current_active_lr_position]
  mini [project_place hp (by intros; nofun), callMethod_mut hpp W.core.f_BasicCache_set_current_active_lr_position rfl, cache_set_active hpp]
  exact .ok ⟨rfl, hg.setCache (st.cache.setActive act) m m', (World.Frame.rfl' W).upd _ _⟩

theorem ctx_set_head [DecidableEq R] (hf : Fuel d n 2) (hg : W.Good st h) (x : Nat) (r : R) (s : List R) :
    Sim d (W.KC h) (callMethod W.Q (run W.Q n) n!"set_head" (.ref W.a []) [.int x, encRule W.vn r, .set (s.map (encRule W.vn))] h)
      (.ok (st.setHead x r s)) := by
  obtain ⟨l, l', e, m, m'⟩ := hg.ctx
  have hp := place_root e
  have hpp := loadV_step hp (cache_step _ _ _ _ _)
  rw [callMethod_mut hp W.core.f_BasicContext_set_head rfl]
  refine Sim.fuel hf fun _ => ?_
  rw [run]
  simp only [W.core.f_BasicContext_set_head, Ast.BasicContext.set_head]
  mini [project_place hp (by intros; nofun), callMethod_mut hpp W.core.f_BasicCache_set_head rfl, cache_set_head hpp]
  exact .ok ⟨rfl, hg.setCache (st.cache.setHead x r s) m (m'.insert W.inj r x ⟨x, r, s, s⟩), (World.Frame.rfl' W).upd _ _⟩

theorem ctx_reinit [DecidableEq R] (hf : Fuel d n 2) (hg : W.Good st h) (r : R) (x : Nat) :
    Sim d (W.KC h) (callMethod W.Q (run W.Q n) n!"reinitialize_eval_set" (.ref W.a []) [encRule W.vn r, .int x] h) (st.reinitializeEvalSet r x) := by
  obtain ⟨l, l', e, m, m'⟩ := hg.ctx
  have hp := place_root e
  have hpp := loadV_step hp (cache_step _ _ _ _ _)
  rw [callMethod_mut hp W.core.f_BasicContext_reinitialize_eval_set rfl]
  refine Sim.fuel hf fun _ => ?_
  rw [run]
  simp only [W.core.f_BasicContext_reinitialize_eval_set, Ast.BasicContext.reinitialize_eval_set]
  mini [project_place hp (by intros; nofun), callMethod_mut hpp W.core.f_BasicCache_reinitialize_eval_set rfl, cache_reinit hpp m']
  unfold St.reinitializeEvalSet Cache.reinitializeEvalSet
  cases hc : st.cache.heads r x with
  | none => exact .panic
  | some y => exact .ok ⟨rfl, hg.setCache (st.cache.putHead r x { y with evalSet := y.involved }) m (m'.insert W.inj r x _), (World.Frame.rfl' W).upd _ _⟩

theorem ctx_remove [DecidableEq R] (hf : Fuel d n 2) (hg : W.Good st h) (k : R × Nat) (r : R) :
    Sim d (W.KC h) (callMethod W.Q (run W.Q n) n!"remove_from_eval_set" (.ref W.a []) [encAt W.vn k, encRule W.vn r] h) (st.removeFromEvalSet k r) := by
  obtain ⟨l, l', e, m, m'⟩ := hg.ctx
  have hp := place_root e
  have hpp := loadV_step hp (cache_step _ _ _ _ _)
  rw [callMethod_mut hp W.core.f_BasicContext_remove_from_eval_set rfl]
  refine Sim.fuel hf fun _ => ?_
  rw [run]
  simp only [W.core.f_BasicContext_remove_from_eval_set, Ast.BasicContext.remove_from_eval_set]
  mini [project_place hp (by intros; nofun), callMethod_mut hpp W.core.f_BasicCache_remove_from_eval_set rfl, cache_remove hpp m']
  unfold St.removeFromEvalSet Cache.removeFromEvalSet
  cases hc : st.cache.heads k.1 k.2 with
  | none => exact .panic
  | some y =>
    exact .ok ⟨rfl, hg.setCache (st.cache.putHead k.1 k.2 { y with evalSet := y.evalSet.filter (· ≠ r) }) m (m'.insert W.inj k.1 k.2 _),
      (World.Frame.rfl' W).upd _ _⟩

/-! Functions that only look -/

/-- The value of the context. -/
def World.Ctx (W : World R U) (st : St R U) (h : Heap) (v : Val) : Prop :=
  ∃ l l', v = ctxVal W.vn l l' st.cache.active st.pub ∧ h[W.a]? = some v ∧ MapRel W.vn encMemo l st.cache.memo ∧
    MapRel W.vn (encHead W.vn) l' st.cache.heads

theorem World.Good.get (hg : W.Good st h) : ∃ v, W.Ctx st h v :=
  let ⟨l, l', e, m, m'⟩ := hg.ctx
  ⟨_, l, l', rfl, e, m, m'⟩

/-- `context.borrow()` -/
theorem World.Ctx.borrow {v : Val} (c : W.Ctx st h v) {pl : Val} : method n!"borrow" pl (.cell W.a) [] h = .ok v h := by
  obtain ⟨l, l', rfl, e, m, m'⟩ := c
  have : method n!"borrow" pl (.cell W.a) [] h = (match h[W.a]? with
      | some w => .ok w h
      | none => .stuck) := rfl
  rw [this, e]

theorem ctx_check_run {v : Val} (c : W.Ctx st h v) (r : R) (x : Nat) :
    run W.Q (n + 2) (.fn (some n!"BasicContext") n!"check") [v, encRule W.vn r, .int x] h = .ok (optV ((st.cache.memo r x).map encMemo)) h := by
  obtain ⟨l, l', rfl, e, m, m'⟩ := c
  rw [run]
  simp only [W.core.f_BasicContext_check, Ast.BasicContext.check]
  have e : project n!"cache" (ctxVal W.vn l l' st.cache.active st.pub) h = .ok (cacheVal W.vn l l' st.cache.active) h := rfl
  have hm : ∀ (c : Call) args h, callMethod W.Q c n!"check" (cacheVal W.vn l l' st.cache.active) args h =
    c (.fn (some n!"BasicCache") n!"check") (cacheVal W.vn l l' st.cache.active :: args) h := fun c args h => callMethod_val W.core.f_BasicCache_check (.inl rfl)
  mini [e, hm, cache_check, m r x]

theorem ctx_check_head_run {v : Val} (c : W.Ctx st h v) (r : R) (x : Nat) :
    run W.Q (n + 2) (.fn (some n!"BasicContext") n!"check_head") [v, encRule W.vn r, .int x] h = .ok (optV ((st.cache.heads r x).map (encHead W.vn))) h := by
  obtain ⟨l, l', rfl, e, m, m'⟩ := c
  rw [run]
  simp only [W.core.f_BasicContext_check_head, Ast.BasicContext.check_head]
  have e : project n!"cache" (ctxVal W.vn l l' st.cache.active st.pub) h = .ok (cacheVal W.vn l l' st.cache.active) h := rfl
  have hm : ∀ (c : Call) args h, callMethod W.Q c n!"check_head" (cacheVal W.vn l l' st.cache.active) args h =
    c (.fn (some n!"BasicCache") n!"check_head") (cacheVal W.vn l l' st.cache.active :: args) h := fun c args h => callMethod_val W.core.f_BasicCache_check_head (.inl rfl)
  mini [e, hm, cache_check_head, m' r x]

theorem ctx_active_run {v : Val} (c : W.Ctx st h v) :
    run W.Q (n + 2) (.fn (some n!"BasicContext") n!"get_current_active_lr_position") [v] h = .ok (encActive W.vn st.cache.active) h := by
  obtain ⟨l, l', rfl, e, m, m'⟩ := c
  rw [run]
  simp only [W.core.f_BasicContext_get_current_active_lr_position, Ast.BasicContext.get_current_active_lr_position]
  have e : project n!"cache" (ctxVal W.vn l l' st.cache.active st.pub) h = .ok (cacheVal W.vn l l' st.cache.active) h := rfl
  have hm : ∀ (c : Call) args h, callMethod W.Q c n!"get_current_active_lr_position" (cacheVal W.vn l l' st.cache.active) args h =
    c (.fn (some n!"BasicCache") n!"get_current_active_lr_position") (cacheVal W.vn l l' st.cache.active :: args) h :=
    fun c args h => callMethod_val W.core.f_BasicCache_get_current_active_lr_position (.inl rfl)
  mini [e, hm, cache_get_active]

theorem ctx_involved_run [DecidableEq R] {v : Val} (c : W.Ctx st h v) (k : R × Nat) (r : R) :
    run W.Q (n + 2) (.fn (some n!"BasicContext") n!"rule_in_involved_set") [v, encAt W.vn k, encRule W.vn r] h =
      outRes (st.cache.ruleInInvolvedSet k r) fun b => .ok (.bool b) h := by
  obtain ⟨l, l', rfl, e, m, m'⟩ := c
  rw [run]
  simp only [W.core.f_BasicContext_rule_in_involved_set, Ast.BasicContext.rule_in_involved_set]
  have e : project n!"cache" (ctxVal W.vn l l' st.cache.active st.pub) h = .ok (cacheVal W.vn l l' st.cache.active) h := rfl
  have hm : ∀ (c : Call) args h, callMethod W.Q c n!"rule_in_involved_set" (cacheVal W.vn l l' st.cache.active) args h =
    c (.fn (some n!"BasicCache") n!"rule_in_involved_set") (cacheVal W.vn l l' st.cache.active :: args) h :=
    fun c args h => callMethod_val W.core.f_BasicCache_rule_in_involved_set (.inl rfl)
  mini [e, hm, cache_in_involved W _ h m', Cache.ruleInInvolvedSet]
  cases st.cache.heads k.1 k.2 <;> rfl

theorem ctx_eval_run [DecidableEq R] {v : Val} (c : W.Ctx st h v) (k : R × Nat) (r : R) :
    run W.Q (n + 2) (.fn (some n!"BasicContext") n!"rule_in_eval_set") [v, encAt W.vn k, encRule W.vn r] h =
      outRes (st.cache.ruleInEvalSet k r) fun b => .ok (.bool b) h := by
  obtain ⟨l, l', rfl, e, m, m'⟩ := c
  rw [run]
  simp only [W.core.f_BasicContext_rule_in_eval_set, Ast.BasicContext.rule_in_eval_set]
  have e : project n!"cache" (ctxVal W.vn l l' st.cache.active st.pub) h = .ok (cacheVal W.vn l l' st.cache.active) h := rfl
  have hm : ∀ (c : Call) args h, callMethod W.Q c n!"rule_in_eval_set" (cacheVal W.vn l l' st.cache.active) args h =
    c (.fn (some n!"BasicCache") n!"rule_in_eval_set") (cacheVal W.vn l l' st.cache.active :: args) h :=
    fun c args h => callMethod_val W.core.f_BasicCache_rule_in_eval_set (.inl rfl)
  mini [e, hm, cache_in_eval W _ h m', Cache.ruleInEvalSet]
  cases st.cache.heads k.1 k.2 <;> rfl

/-- A method that only looks, by `borrow()` or through a `borrow_mut()`. -/
theorem World.Ctx.call {v : Val} (c : W.Ctx st h v) {call : Call} {m : Name} {f : _root_.PP.Mini.Fn} {args : List Val} (hf : W.Q.fn? (some n!"BasicContext") m = some f)
    (hr : f.recv = .ref) : callMethod W.Q call m v args h = call (.fn (some n!"BasicContext") m) (v :: args) h := by
  obtain ⟨l, l', rfl, e, -, -⟩ := c
  exact callMethod_val hf (.inl hr)
theorem World.Ctx.callMut {v : Val} (c : W.Ctx st h v) {call : Call} {m : Name} {f : _root_.PP.Mini.Fn} {args : List Val} (hf : W.Q.fn? (some n!"BasicContext") m = some f)
    (hr : f.recv = .ref) : callMethod W.Q call m (.ref W.a []) args h = call (.fn (some n!"BasicContext") m) (v :: args) h := by
  obtain ⟨l, l', rfl, e, -, -⟩ := c
  exact callMethod_ref (place_root e) hf hr

/-- A method called through a variable that holds a `borrow_mut()`. -/
theorem callMethod_var {a L : Nat} {v : Val} {Q : Prog} {call : Call} {m : Name} {args : List Val} (hL : h[L]? = some (.ref a []))
    (hp : loadV h (.ref a []) = some v) (hv : ∀ b q, v ≠ .ref b q) : callMethod Q call m (.ref L []) args h = callMethod Q call m (.ref a []) args h := by
  have e : follow (.ref L []) h = .ref a [] := by
    unfold follow
    rw [place_root hL]
  unfold callMethod
  rw [e, follow_place hp hv]
end
end PP.Mini
