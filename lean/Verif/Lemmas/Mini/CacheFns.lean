import Verif.Lemmas.Mini.Cache

/-! # The functions of cache.rs -/
namespace PP.Mini
attribute [local congr] Res.bind_congr loopN_congr forN_congr

section
variable {R U : Type} {W : World R U} {n : Nat} {h : Heap} {a : Nat} {p : List Step} {l l' : List (Val × Val)} {act : Option (R × Nat)}

theorem at_tuple (vn : R → Name) (r : R) (k : Nat) : Val.tuple [encRule vn r, .int k] = encAt vn (r, k) := rfl
theorem load_at (vn : R → Name) (x : R × Nat) (h : Heap) : load (encAt vn x) h = .ok (encAt vn x) h := rfl
theorem follow_at (vn : R → Name) (x : R × Nat) (h : Heap) : follow (encAt vn x) h = encAt vn x := rfl

theorem cache_get_active (W : World R U) (n : Nat) (h : Heap) :
    run W.Q (n + 1) (.fn (some n!"BasicCache") n!"get_current_active_lr_position") [cacheVal W.vn l l' act] h = .ok (encActive W.vn act) h := by
  rw [run]
  simp only [W.core.f_BasicCache_get_current_active_lr_position, Ast.BasicCache.get_current_active_lr_position]
  have e : project n!"current_active_left_recursion" (cacheVal W.vn l l' act) h = .ok (encActive W.vn act) h := rfl
  mini [e]
  cases act <;> rfl

theorem cache_set_active (hp : loadV h (.ref a p) = some (cacheVal W.vn l l' act)) (act' : Option (R × Nat)) :
    run W.Q (n + 1) (.fn (some n!"BasicCache") n!"set_current_active_lr_position") [.ref a p, encActive W.vn act'] h =
      .ok .unit (upd h a p (cacheVal W.vn l l' act')) := by
  rw [run]
  simp only [W.core.f_BasicCache_set_current_active_lr_position, Ast.BasicCache.set_current_active_lr_position]
  have hs : stepAt (cacheVal W.vn l l' act) (.fld n!"current_active_left_recursion") = some (encActive W.vn act) := rfl
  mini [project_place hp (by intros; nofun), store_place (loadV_step hp hs), upd_step hp hs]
  rfl

theorem cache_insert (hp : loadV h (.ref a p) = some (cacheVal W.vn l l' act)) (r : R) (b : Bool) (x y k : Nat) :
    run W.Q (n + 1) (.fn (some n!"BasicCache") n!"insert") [.ref a p, encRule W.vn r, .bool b, .int x, .int y, encKey k] h =
      .ok .unit (upd h a p (cacheVal W.vn (insertV (encAt W.vn (r, x)) (encMemo (b, y, k)) l) l' act)) := by
  rw [run]
  simp only [W.core.f_BasicCache_insert, Ast.BasicCache.insert]
  have hs : stepAt (cacheVal W.vn l l' act) (.fld n!"cache") = some (.map l) := rfl
  have hm : Val.tuple [.bool b, .int y, encKey k] = encMemo (b, y, k) := rfl
  have hp' := loadV_step hp hs
  obtain ⟨v, hv⟩ := m_map_insert (vn := W.vn) (k := (r, x)) (x := encMemo (b, y, k)) hp'
  mini [project_place hp (by intros; nofun), callMethod_lib hp' (by intros; nofun) (by intros; nofun), at_tuple, hm, hv, upd_step hp hs]
  rfl

theorem cache_check (W : World R U) (n : Nat) (h : Heap) (r : R) (x : Nat) :
    run W.Q (n + 1) (.fn (some n!"BasicCache") n!"check") [cacheVal W.vn l l' act, encRule W.vn r, .int x] h =
      .ok (optV (lookupV (encAt W.vn (r, x)) l)) h := by
  rw [run]
  simp only [W.core.f_BasicCache_check, Ast.BasicCache.check]
  have e : project n!"cache" (cacheVal W.vn l l' act) h = .ok (.map l) h := rfl
  mini [e, at_tuple, load_at, follow_at, m_map_get]
  cases lookupV (encAt W.vn (r, x)) l <;> simp only [optV] <;> mini

theorem cache_check_head (W : World R U) (n : Nat) (h : Heap) (r : R) (x : Nat) :
    run W.Q (n + 1) (.fn (some n!"BasicCache") n!"check_head") [cacheVal W.vn l l' act, encRule W.vn r, .int x] h =
      .ok (optV (lookupV (encAt W.vn (r, x)) l')) h := by
  rw [run]
  simp only [W.core.f_BasicCache_check_head, Ast.BasicCache.check_head]
  have e : project n!"heads" (cacheVal W.vn l l' act) h = .ok (.map l') h := rfl
  mini [e, at_tuple, load_at, follow_at, m_map_get]
  cases lookupV (encAt W.vn (r, x)) l' <;> simp only [optV] <;> mini [global]

theorem cache_set_head (hp : loadV h (.ref a p) = some (cacheVal W.vn l l' act)) (x : Nat) (r : R) (s : List R) :
    run W.Q (n + 1) (.fn (some n!"BasicCache") n!"set_head") [.ref a p, .int x, encRule W.vn r, .set (s.map (encRule W.vn))] h =
      .ok .unit (upd h a p (cacheVal W.vn l (insertV (encAt W.vn (r, x)) (encHead W.vn ⟨x, r, s, s⟩) l') act)) := by
  rw [run]
  simp only [W.core.f_BasicCache_set_head, Ast.BasicCache.set_head]
  have hs : stepAt (cacheVal W.vn l l' act) (.fld n!"heads") = some (.map l') := rfl
  have hm : Val.struct n!"Head" [(n!"start_position", .int x), (n!"active_left_recursion_rule", encRule W.vn r),
    (n!"involved_set", .set (s.map (encRule W.vn))), (n!"eval_set", .set (s.map (encRule W.vn)))] = encHead W.vn ⟨x, r, s, s⟩ := rfl
  have hp' := loadV_step hp hs
  obtain ⟨v, hv⟩ := m_map_insert (vn := W.vn) (k := (r, x)) (x := encHead W.vn ⟨x, r, s, s⟩) hp'
  mini [project_place hp (by intros; nofun), callMethod_lib hp' (by intros; nofun) (by intros; nofun), at_tuple, hm, hv, upd_step hp hs]
  rfl

theorem cache_in_involved [DecidableEq R] (W : World R U) (n : Nat) (h : Heap) (hl : MapRel W.vn (encHead W.vn) l' c) (k : R × Nat) (r : R) :
    run W.Q (n + 1) (.fn (some n!"BasicCache") n!"rule_in_involved_set") [cacheVal W.vn l l' act, encAt W.vn k, encRule W.vn r] h =
      match c k.1 k.2 with
      | none => .panic
      | some x => .ok (.bool (x.involved.contains r)) h := by
  rw [run]
  simp only [W.core.f_BasicCache_rule_in_involved_set, Ast.BasicCache.rule_in_involved_set]
  have e : project n!"heads" (cacheVal W.vn l l' act) h = .ok (.map l') h := rfl
  mini [e, load_at, follow_at, m_map_get, hl k.1 k.2]
  cases c k.1 k.2 with
  | none => simp only [Option.map_none, optV]; mini
  | some x =>
    have e' : project n!"involved_set" (encHead W.vn x) h = .ok (.set (x.involved.map (encRule W.vn))) h := rfl
    simp only [Option.map_some, optV]
    mini [e', load_rule, follow_rule, memV_rule W.inj]

theorem cache_in_eval [DecidableEq R] (W : World R U) (n : Nat) (h : Heap) (hl : MapRel W.vn (encHead W.vn) l' c) (k : R × Nat) (r : R) :
    run W.Q (n + 1) (.fn (some n!"BasicCache") n!"rule_in_eval_set") [cacheVal W.vn l l' act, encAt W.vn k, encRule W.vn r] h =
      match c k.1 k.2 with
      | none => .panic
      | some x => .ok (.bool (x.evalSet.contains r)) h := by
  rw [run]
  simp only [W.core.f_BasicCache_rule_in_eval_set, Ast.BasicCache.rule_in_eval_set]
  have e : project n!"heads" (cacheVal W.vn l l' act) h = .ok (.map l') h := rfl
  mini [e, load_at, follow_at, m_map_get, hl k.1 k.2]
  cases c k.1 k.2 with
  | none => simp only [Option.map_none, optV]; mini
  | some x =>
    have e' : project n!"eval_set" (encHead W.vn x) h = .ok (.set (x.evalSet.map (encRule W.vn))) h := rfl
    simp only [Option.map_some, optV]
    mini [e', load_rule, follow_rule, memV_rule W.inj]

theorem m_map_get_mut {k : R × Nat} {vn : R → Name} : method n!"get_mut" (.ref a p) (.map l) [encAt vn k] h =
    match findKey (encAt vn k) l with
    | some i => .ok (.some (.ref a (p ++ [.idx i]))) h
    | none => .ok .none h := rfl

/-- A head is changed in place. -/
theorem set_head_field (hp : loadV h (.ref a p) = some (cacheVal W.vn l l' act)) {k : R × Nat} {i : Nat} (hi : findKey (encAt W.vn k) l' = some i)
    {x y : Head R} (hx : lookupV (encAt W.vn k) l' = some (encHead W.vn x)) {f : Name} {u w : Val}
    (hu : stepAt (encHead W.vn x) (.fld f) = some u) (hw : stepPut (encHead W.vn x) (.fld f) w = encHead W.vn y) :
    upd h a (p ++ [.fld n!"heads"] ++ [.idx i] ++ [.fld f]) w = upd h a p (cacheVal W.vn l (insertV (encAt W.vn k) (encHead W.vn y) l') act) := by
  obtain ⟨v, hv, hl, hs⟩ := findKey_some hi
  rw [hx] at hl; cases hl
  have h1 : stepAt (cacheVal W.vn l l' act) (.fld n!"heads") = some (.map l') := rfl
  have h2 : stepAt (.map l') (.idx i) = some (encHead W.vn x) := by simp [stepAt, hv]
  rw [upd_step (loadV_step (loadV_step hp h1) h2) hu, upd_step (loadV_step hp h1) h2, upd_step hp h1, hw]
  have : stepPut (.map l') (.idx i) (encHead W.vn y) = .map (insertV (encAt W.vn k) (encHead W.vn y) l') := by
    simp only [stepPut, hv, hs]
  rw [this]
  rfl

theorem head_place (hp : loadV h (.ref a p) = some (cacheVal W.vn l l' act)) {k : R × Nat} {i : Nat} (hi : findKey (encAt W.vn k) l' = some i)
    {x : Head R} (hx : lookupV (encAt W.vn k) l' = some (encHead W.vn x)) :
    loadV h (.ref a (p ++ [.fld n!"heads"] ++ [.idx i])) = some (encHead W.vn x) := by
  obtain ⟨v, hv, hl, hs⟩ := findKey_some hi
  rw [hx] at hl; cases hl
  have h1 : stepAt (cacheVal W.vn l l' act) (.fld n!"heads") = some (.map l') := rfl
  have h2 : stepAt (.map l') (.idx i) = some (encHead W.vn x) := by simp [stepAt, hv]
  exact loadV_step (loadV_step hp h1) h2

theorem cache_reinit (hp : loadV h (.ref a p) = some (cacheVal W.vn l l' act)) (hl : MapRel W.vn (encHead W.vn) l' c) (r : R) (x : Nat) :
    run W.Q (n + 1) (.fn (some n!"BasicCache") n!"reinitialize_eval_set") [.ref a p, encRule W.vn r, .int x] h =
      match c r x with
      | none => .panic
      | some y => .ok .unit (upd h a p (cacheVal W.vn l (insertV (encAt W.vn (r, x)) (encHead W.vn { y with evalSet := y.involved }) l') act)) := by
  rw [run]
  simp only [W.core.f_BasicCache_reinitialize_eval_set, Ast.BasicCache.reinitialize_eval_set]
  have hp' : loadV h (.ref a (p ++ [.fld n!"heads"])) = some (.map l') := loadV_step hp rfl
  mini [project_place hp (by intros; nofun), callMethod_lib hp' (by intros; nofun) (by intros; nofun), at_tuple, load_at, follow_at, m_map_get_mut]
  have hc := hl r x
  cases hf : findKey (encAt W.vn (r, x)) l' with
  | none =>
    rw [findKey_none hf] at hc
    cases hr : c r x with
    | some y => simp [hr] at hc
    | none => mini
  | some i =>
    obtain ⟨v, hv, hl, -⟩ := findKey_some hf
    cases hr : c r x with
    | none => simp [hr, hl] at hc
    | some y =>
      rw [hr, Option.map_some] at hc
      have hh := head_place hp hf hc
      have h1 : loadV h (.ref a (p ++ [.fld n!"heads"] ++ [.idx i] ++ [.fld n!"involved_set"])) = some (.set (y.involved.map (encRule W.vn))) := loadV_step hh rfl
      have h2 : loadV h (.ref a (p ++ [.fld n!"heads"] ++ [.idx i] ++ [.fld n!"eval_set"])) = some (.set (y.evalSet.map (encRule W.vn))) := loadV_step hh rfl
      mini [project_place hh (by intros; nofun), callMethod_lib h1 (by intros; nofun) (by intros; nofun), store_place h2]
      rw [set_head_field hp hf hc (y := { y with evalSet := y.involved }) rfl (by simp [stepPut, encHead, setField])]

theorem cache_remove [DecidableEq R] (hp : loadV h (.ref a p) = some (cacheVal W.vn l l' act)) (hl : MapRel W.vn (encHead W.vn) l' c) (k : R × Nat) (r : R) :
    run W.Q (n + 1) (.fn (some n!"BasicCache") n!"remove_from_eval_set") [.ref a p, encAt W.vn k, encRule W.vn r] h =
      match c k.1 k.2 with
      | none => .panic
      | some y => .ok .unit (upd h a p (cacheVal W.vn l (insertV (encAt W.vn k) (encHead W.vn { y with evalSet := y.evalSet.filter (· ≠ r) }) l') act)) := by
  rw [run]
  simp only [W.core.f_BasicCache_remove_from_eval_set, Ast.BasicCache.remove_from_eval_set]
  have hp' : loadV h (.ref a (p ++ [.fld n!"heads"])) = some (.map l') := loadV_step hp rfl
  mini [project_place hp (by intros; nofun), callMethod_lib hp' (by intros; nofun) (by intros; nofun), load_at, follow_at, m_map_get_mut]
  have hc := hl k.1 k.2
  change lookupV (encAt W.vn k) l' = _ at hc
  cases hf : findKey (encAt W.vn k) l' with
  | none =>
    rw [findKey_none hf] at hc
    cases hr : c k.1 k.2 with
    | some y => simp [hr] at hc
    | none => mini
  | some i =>
    obtain ⟨v, hv, hl, -⟩ := findKey_some hf
    cases hr : c k.1 k.2 with
    | none => simp [hr, hl] at hc
    | some y =>
      rw [hr, Option.map_some] at hc
      have hh := head_place hp hf hc
      have h2 : loadV h (.ref a (p ++ [.fld n!"heads"] ++ [.idx i] ++ [.fld n!"eval_set"])) = some (.set (y.evalSet.map (encRule W.vn))) := loadV_step hh rfl
      mini [project_place hh (by intros; nofun), load_rule, follow_rule, callMethod_lib h2 (by intros; nofun) (by intros; nofun), store_place h2]
      rw [set_head_field hp hf hc (y := { y with evalSet := y.evalSet.filter (· ≠ r) }) rfl (by
        rw [filter_rule W.inj]; simp [stepPut, encHead, setField])]
end
end PP.Mini
