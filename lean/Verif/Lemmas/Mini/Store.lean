import Verif.Spec.Mini.Store
import Verif.Props.Store
import Verif.Lemmas.Mini.CacheFns
import Verif.Lemmas.Mini.Parse
import Verif.Lemmas.Mini.Ex11
import Verif.Lemmas.Mini.Check

/-! # The stores of the core, used on their own, do what Spec/Mini/Store says -/
namespace PP.Mini
open PP.Gen
attribute [local congr] Res.bind_congr loopN_congr forN_congr

/-- A head is kept under its own rule and position. -/
theorem heads_named {R : Type} [DecidableEq R] : ∀ (ops : List (CacheOp R)) (c : Cache R), Cache.after ops = .ok c →
    ∀ r p h, c.heads r p = some h → h.startPosition = p ∧ h.activeRule = r := by
  intro ops
  induction ops with
  | nil => intro c h r p y hy; cases h; cases hy
  | cons op ops ih =>
    intro c h
    simp only [Cache.after, Out.bind_eq_ok] at h
    obtain ⟨c0, h0, h1⟩ := h
    have i := ih c0 h0
    have put : ∀ r p y, y.startPosition = p ∧ y.activeRule = r →
        ∀ r' p' z, (c0.putHead r p y).heads r' p' = some z → z.startPosition = p' ∧ z.activeRule = r' := by
      intro r p y hy r' p' z hz
      simp only [Cache.putHead] at hz
      by_cases hrp : r' = r ∧ p' = p
      · rw [if_pos hrp] at hz
        cases hz
        exact ⟨hy.1.trans hrp.2.symm, hy.2.trans hrp.1.symm⟩
      · rw [if_neg hrp] at hz
        exact i r' p' z hz
    cases op with
    | insert r b p q k => cases h1; exact i
    | setActive a => cases h1; exact i
    | setHead p r inv => cases h1; exact put r p _ ⟨rfl, rfl⟩
    | reinitialize r p =>
      simp only [CacheOp.run, Cache.reinitializeEvalSet] at h1
      split at h1
      · cases h1
      · next hd hhd => cases h1; exact put r p _ (i r p hd hhd)
    | remove k y =>
      simp only [CacheOp.run, Cache.removeFromEvalSet] at h1
      split at h1
      · cases h1
      · next hd hhd => cases h1; exact put k.1 k.2 _ (i k.1 k.2 hd hhd)

/-- What is needed of the program. -/
structure HasStores (Q : Prog) : Prop where
  core : HasCore Q
  many : Q.fn? (some n!"Source") n!"get_multiple_chars" = some Ast.Source.get_multiple_chars
  getLen : Q.fn? (some n!"Source") n!"get_len" = some Ast.Source.get_len
  clear : Q.fn? (some n!"BasicPublisher") n!"clear_node_of_children" = some Ast.BasicPublisher.clear_node_of_children
  setChildren : Q.fn? (some n!"Node") n!"set_children" = some Ast.Node.set_children
  grammar : Q.isVariant n!"Rules" n!"Grammar" = true

/-- A world whose rules are names. -/
def HasStores.world {Q : Prog} (H : HasStores Q) (text : Bytes) : World Name Unit where
  Q := Q
  core := H.core
  vn := id
  inj _ _ e := e
  ur _ _ := True
  a := 0
  u := 1
  ne := by decide
  src := ⟨text⟩

/-! ### Source -/
section
variable {Q : Prog} (H : HasStores Q)
include H

theorem runSource_eq (text : Bytes) (n : Nat) (m : Name) (args : List Val) :
    runSource Q (n + 1) text m args = run Q (n + 1) (.fn (some n!"Source") m) (encSource ⟨text⟩ :: args) [] := by
  have e := source_new_run (W := H.world text) (n := n) (h := []) text
  change run Q _ _ _ _ = _ at e
  rw [runSource, e, Res.bind_ok]

omit H in
theorem getChar_seen (text : Bytes) (p : Nat) : Source.getChar ⟨text⟩ p = (text.take (seenLength text))[p]? := by
  unfold Source.getChar Source.len seenLength
  rw [List.getElem?_take]

omit H in
theorem boundary_iff (text : Bytes) (i : Nat) (hi : i ≤ text.length) : Source.isCharBoundary text i = true ↔ Boundary text i := by
  rw [← boundary, betweenChars, Boundary]
  cases hc : text[i]? with
  | none =>
    have := List.getElem?_eq_none_iff.mp hc
    have e : i = text.length := by omega
    simp only [e, decide_true, reduceCtorEq, false_imp_iff, implies_true, or_true]
  | some c => simp

theorem sourceWorks : SourceWorks Q where
  get_len text n := by
    refine ⟨[], ?_⟩
    rw [runSource_eq H, run]
    simp only [H.getLen, Ast.Source.get_len]
    mini [encSource, project, follow, loadV, load]
    rfl
  get_char text n p := by
    refine ⟨[], ?_⟩
    rw [runSource_eq H]
    have e := get_char_run (H.world text) n p []
    change run Q _ _ _ _ = _ at e
    change run Q _ _ [encSource (H.world text).src, _] _ = _
    rw [e]
    change Res.ok (encChar (Source.getChar ⟨text⟩ p)) _ = _
    rw [getChar_seen]
    cases (text.take (seenLength text))[p]? <;> rfl
  get_multiple_chars text n p k hk := by
    refine ⟨[], ?_⟩
    rw [runSource_eq H, run]
    simp only [H.many, Ast.Source.get_multiple_chars]
    have hs : text.length % 4294967296 ≤ text.length := Nat.mod_le _ _
    by_cases hl : p + k < seenLength text
    · have hb : p ≤ p + k ∧ p + k ≤ text.length := by unfold seenLength at hl; omega
      have hl' : p + k < Source.len ⟨text⟩ := hl
      have e : (text.take (p + k)).drop p = (text.drop p).take k := by rw [List.drop_take]; congr 1; omega
      mini [encSource, project, follow, loadV, load, binop, hl, hl', hk, decide_true, callMethod, method, castTo, slicing, hb, callGlobal, e, and_self]
    · have hl' : ¬ p + k < Source.len ⟨text⟩ := hl
      mini [encSource, project, follow, loadV, load, binop, hl, hl', hk, decide_false, global]
  get_multiple_chars_overflows text n p k hk := by
    rw [runSource_eq H, run]
    simp only [H.many, Ast.Source.get_multiple_chars]
    have hk' : ¬ p + k < 4294967296 := by omega
    mini [encSource, binop, hk']
  get_string_none text n p q hpq := by
    refine ⟨[], ?_⟩
    rw [runSource_eq H]
    have e := get_string_run (H.world text) n p q []
    change run Q _ _ [encSource ⟨text⟩, _, _] _ = _ at e
    rw [e]
    have : Source.getString (H.world text).src p q = .ok none := by
      show Source.getString ⟨text⟩ p q = _
      rw [Source.getString]
      exact if_pos hpq
    rw [this]; rfl
  get_string text n p q hpq hq hp' hq' := by
    refine ⟨[], ?_⟩
    rw [runSource_eq H]
    have e := get_string_run (H.world text) n p q []
    change run Q _ _ [encSource ⟨text⟩, _, _] _ = _ at e
    rw [e]
    have hs : seenLength text ≤ text.length := Nat.mod_le _ _
    have : Source.getString (H.world text).src p q = .ok (some ((text.drop p).take (q - p))) := by
      show Source.getString ⟨text⟩ p q = _
      rw [Source.getString, if_neg (by change ¬ (p > seenLength text ∨ q > seenLength text); omega), Source.strSlice,
        if_pos ⟨hpq, by show q ≤ text.length; omega, (boundary_iff text p (by omega)).mpr hp', (boundary_iff text q (by omega)).mpr hq'⟩]
      rfl
    rw [this]; rfl
  get_string_panics text n p q hp hq hn := by
    rw [runSource_eq H]
    have e := get_string_run (H.world text) n p q []
    change run Q _ _ [encSource ⟨text⟩, _, _] _ = _ at e
    rw [e]
    have hs : seenLength text ≤ text.length := Nat.mod_le _ _
    have : Source.getString (H.world text).src p q = .panic .slice := by
      show Source.getString ⟨text⟩ p q = _
      rw [Source.getString, if_neg (by change ¬ (p > seenLength text ∨ q > seenLength text); omega), Source.strSlice, if_neg ?_]
      · rfl
      · rintro ⟨h1, -, h3, h4⟩
        exact hn ⟨h1, (boundary_iff text p (by omega)).mp h3, (boundary_iff text q (by omega)).mp h4⟩
    rw [this]; rfl
end

/-! ### BasicPublisher -/
section
variable {Q : Prog} (H : HasStores Q) {n : Nat} {ns : List (Node Name)} {h : Heap} {a : Nat}

theorem change_modify (i : Nat) (f : Node Name → Node Name) (ns : List (Node Name)) :
    (⟨ns⟩ : Publisher Name).modify i f = match change i f ns with | some t => .ok ⟨t⟩ | none => .panic .indexOutOfBounds := by
  unfold Publisher.modify change
  by_cases hi : i < ns.length
  · simp only [List.getElem?_eq_getElem hi, if_pos hi]
    congr 2
    apply List.ext_getElem?
    intro j
    simp only [List.getElem?_set, List.getElem?_modify, hi, if_true]
    by_cases e : i = j
    · subst e; simp [hi]
    · simp [e]
  · simp only [List.getElem?_eq_none (Nat.le_of_not_lt hi), if_neg hi]

/-- What the heap shows of a call's effect. -/
def shown (h : Heap) (a : Nat) : Option (Val × List (Node Name)) → Res Val
  | some (v, t) => .ok v (upd h a [] (encPub id ⟨t⟩))
  | none => .panic

theorem shown_change {i : Nat} {f : Node Name → Node Name} {o : Out (Publisher Name)} (ho : o = (⟨ns⟩ : Publisher Name).modify i f) :
    outRes o (fun o => .ok .unit (upd h a [] (encPub id o))) = shown h a ((change i f ns).map fun t => (.unit, t)) := by
  rw [ho, change_modify]
  cases change i f ns <;> rfl

include H
theorem clear_children_run (hp : loadV h (.ref a []) = some (encPub id (⟨ns⟩ : Publisher Name))) (i : Nat) :
    run Q (n + 3) (.fn (some n!"BasicPublisher") n!"clear_node_of_children") [.ref a [], encKey i] h =
      outRes ((⟨ns⟩ : Publisher Name).modify i fun nd => { nd with children := [] }) fun o => .ok .unit (upd h a [] (encPub id o)) := by
  have hm := fun n => get_mut_node_run (W := H.world []) (n := n) (p := []) hp i
  change ∀ n, run Q _ _ _ _ = _ at hm
  rw [run]
  simp only [H.clear, Ast.BasicPublisher.clear_node_of_children]
  mini [callMethod_mut hp H.core.f_BasicPublisher_get_mut_node rfl, hm, Publisher.getNode, Publisher.modify]
  cases hk : ns[i]? with
  | none => rfl
  | some nd =>
    have hn := node_place (W := H.world []) hp hk
    have hc : loadV h (.ref a ([] ++ [.fld n!"nodes"] ++ [.idx i] ++ [.fld n!"children"])) = some (.vec (nd.children.map encKey)) := loadV_step hn rfl
    simp only [Out.ofOption, outRes]
    mini [callMethod_mut (Q := Q) hn H.setChildren rfl]
    rw [run]
    simp only [H.setChildren, Ast.Node.set_children]
    mini [project_place hn (by intros; nofun), store_place hc]
    rw [set_node_field (W := H.world []) hp hk (nd' := { nd with children := [] }) rfl (by simp [stepPut, encNode, setField])]
    rfl

theorem tree_call (hp : loadV h (.ref a []) = some (encPub id (⟨ns⟩ : Publisher Name))) (c : TreeCall) :
    callMethod Q (run Q (n + 3)) c.call.1 (.ref a []) c.call.2 h = shown h a (c.effect ns) := by
  have hW : (H.world []).Q = Q := rfl
  cases c with
  | addNode r x y b =>
    rw [TreeCall.call, callMethod_mut hp H.core.f_BasicPublisher_add_node rfl]
    have e := add_node_run (W := H.world []) (n := n + 2) (p := []) hp r x y b
    change run Q (n + 3) (.fn (some n!"BasicPublisher") n!"add_node") [.ref a [], .variant n!"Rules" r, .int x, .int y, .bool b] h = _ at e
    rw [e, TreeCall.effect, Publisher.addNode]
    split <;> rfl
  | connect i j =>
    rw [TreeCall.call, callMethod_mut hp H.core.f_BasicPublisher_connect rfl]
    have e := connect_run (W := H.world []) (n := n) (p := []) hp i j
    change run Q _ _ _ _ = _ at e
    rw [e, TreeCall.effect, Publisher.connect]
    split
    · rfl
    · exact shown_change rfl
  | connectIfNotConnected i j =>
    rw [TreeCall.call, callMethod_mut hp H.core.f_BasicPublisher_connect_if_not_connected rfl]
    have e := connect_if_run (W := H.world []) (n := n) (p := []) hp i j
    change run Q _ _ _ _ = _ at e
    rw [e, TreeCall.effect, Publisher.connectIfNotConnected]
    simp only [List.contains_iff_mem]
    exact shown_change rfl
  | clearChildren i =>
    rw [TreeCall.call, callMethod_mut hp H.clear rfl]
    rw [clear_children_run H hp, TreeCall.effect]
    exact shown_change rfl
  | setStart i x =>
    rw [TreeCall.call, callMethod_mut hp H.core.f_BasicPublisher_set_node_start_position rfl]
    have e := set_start_run (W := H.world []) (n := n + 1) (p := []) hp i x
    change run Q _ _ _ _ = _ at e
    rw [e, TreeCall.effect]
    exact shown_change rfl
  | setStop i x =>
    rw [TreeCall.call, callMethod_mut hp H.core.f_BasicPublisher_set_node_end_position rfl]
    have e := set_stop_run (W := H.world []) (n := n + 1) (p := []) hp i x
    change run Q _ _ _ _ = _ at e
    rw [e, TreeCall.effect]
    exact shown_change rfl
  | setResult i x =>
    rw [TreeCall.call, callMethod_mut hp H.core.f_BasicPublisher_set_node_result rfl]
    have e := set_result_run (W := H.world []) (n := n + 1) (p := []) hp i x
    change run Q _ _ _ _ = _ at e
    rw [e, TreeCall.effect]
    exact shown_change rfl
  | getNode i =>
    rw [TreeCall.call, callMethod_ref hp H.core.f_BasicPublisher_get_node rfl]
    have e := get_node_run (H.world []) (n + 1) ⟨ns⟩ i h
    change run Q _ _ [encPub id _, _] _ = _ at e
    change run Q _ _ [encPub id ⟨ns⟩, _] _ = _
    rw [e, TreeCall.effect, Publisher.getNode]
    cases ns[i]? with
    | none => rfl
    | some nd => simp only [Out.ofOption, outRes, Option.map_some, shown, upd_self hp]; rfl
  | len =>
    rw [TreeCall.call, callMethod_ref hp H.core.f_BasicPublisher_len rfl]
    have e := len_run (H.world []) (n + 2) ⟨ns⟩ h
    change run Q _ _ [encPub id _] _ = _ at e
    change run Q _ _ [encPub id ⟨ns⟩] _ = _
    rw [e, TreeCall.effect]
    simp only [shown, upd_self hp]

theorem tree_calls (cs : List TreeCall) : ∀ (ns : List (Node Name)) (h : Heap), loadV h (.ref a []) = some (encPub id (⟨ns⟩ : Publisher Name)) →
    runTreeCalls Q (n + 3) a cs h = match effects cs ns with
      | some (vs, t) => .ok vs (upd h a [] (encPub id ⟨t⟩))
      | none => .panic := by
  induction cs with
  | nil => intro ns h hp; simp only [runTreeCalls, effects, upd_self hp]
  | cons c cs ih =>
    intro ns h hp
    rw [runTreeCalls, tree_call H hp, effects]
    cases hc : c.effect ns with
    | none => rfl
    | some x =>
      obtain ⟨v, t⟩ := x
      simp only [shown, Res.bind_ok, ih t _ (load_upd hp), Option.bind_eq_bind, Option.bind_some]
      cases effects cs t with
      | none => rfl
      | some y => simp only [Res.bind_ok, Option.bind_some, upd_upd hp]

theorem tree_run (size rules : Nat) (cs : List TreeCall) (hxy : size * rules < 18446744073709551616) :
    match effects cs [rootNode] with
    | some (vs, ns) => ∃ h, runTree Q (n + 3) size rules cs = .ok (.tuple [.vec vs, encPub id ⟨ns⟩]) h
    | none => runTree Q (n + 3) size rules cs = .panic := by
  have e := pub_new_run (H.world []) (n + 1) size rules [] (g := n!"Grammar") rfl H.grammar hxy
  change run Q _ _ _ _ = _ at e
  have hr : (Publisher.new n!"Grammar" : Publisher Name) = ⟨[rootNode]⟩ := rfl
  rw [hr] at e
  have hp : loadV ([] ++ [encPub id (⟨[rootNode]⟩ : Publisher Name)] ++ [encPub id (⟨[rootNode]⟩ : Publisher Name)]) (.ref 1 []) =
    some (encPub id (⟨[rootNode]⟩ : Publisher Name)) := rfl
  have ht := tree_calls (n := n) H cs _ _ hp
  have hrun : runTree Q (n + 3) size rules cs = (runTreeCalls Q (n + 3) 1 cs ([] ++ [encPub id (⟨[rootNode]⟩ : Publisher Name)] ++ [encPub id (⟨[rootNode]⟩ : Publisher Name)])).bind
      fun vs h' => match h'[1]? with
        | some t => .ok (.tuple [.vec vs, t]) h'
        | none => .stuck := by
    rw [runTree, e]; rfl
  rw [hrun, ht]
  cases effects cs [rootNode] with
  | none => rfl
  | some x =>
    obtain ⟨vs, ns⟩ := x
    simp only [Res.bind_ok, upd_root hp]
    exact ⟨_, rfl⟩

theorem treeWorks : TreeWorks Q where
  ok size rules cs n vs ns hxy he := by
    have := tree_run (n := n) H size rules cs hxy
    rw [he] at this; exact this
  panics size rules cs n hxy he := by
    have := tree_run (n := n) H size rules cs hxy
    rw [he] at this; exact this
end

/-! ### BasicCache -/
section
variable {Q : Prog} (H : HasStores Q) {n : Nat} {h : Heap} {a : Nat}

/-- The heap holds the cache. -/
def CacheAt (c : Cache Name) (a : Nat) (h : Heap) : Prop :=
  ∃ l l', loadV h (.ref a []) = some (cacheVal id l l' c.active) ∧ MapRel id encMemo l c.memo ∧ MapRel id (encHead id) l' c.heads

/-- The call's result is one of the possible answers, and the heap holds the cache after it. -/
def CacheStep (ops : List (CacheOp Name)) (a : Nat) (c : CacheCall) : Res Val → Prop
  | .panic => Answers ops c none
  | .ok v h => Answers ops c (some v) ∧ ∃ x, Cache.after (c.after ops) = .ok x ∧ CacheAt x a h
  | _ => False

theorem writes_ok {ops : List (CacheOp Name)} {x y : Cache Name} {op : CacheOp Name} (hx : Cache.after ops = .ok x) (hy : op.run x = .ok y) :
    Cache.after (op :: ops) = .ok y := by
  rw [Cache.after, hx]; exact hy

theorem encActive_pair (x : Option (Name × Nat)) : encOption encPair x = encActive id x := by cases x <;> rfl

include H
theorem cache_call {ops : List (CacheOp Name)} {x : Cache Name} (hx : Cache.after ops = .ok x) (hc : CacheAt x a h) (c : CacheCall) :
    CacheStep ops a c (callMethod Q (run Q (n + 1)) c.call.1 (.ref a []) c.call.2 h) := by
  obtain ⟨l, l', hp, m, m'⟩ := hc
  have hW : (H.world []).Q = Q := rfl
  have hneed := C44_head_operations_need_a_head ops x hx
  have hheads := (after_spec ops x hx).2.2
  cases c with
  | write op =>
    cases op with
    | insert r b p q k =>
      rw [show CacheCall.call (.write (.insert r b p q k)) = (n!"insert", [encRule id r, .bool b, .int p, .int q, encKey k]) from rfl,
        callMethod_mut hp H.core.f_BasicCache_insert rfl]
      have e := cache_insert (W := H.world []) (n := n) (p := []) hp r b p q k
      change run Q _ _ _ _ = _ at e
      simp only [show (H.world []).vn = id from rfl] at e
      simp only [e]
      exact ⟨rfl, x.insert r b p q k, writes_ok hx rfl, _, l', load_upd hp, m.insert (fun _ _ e => e) r p (b, q, k), m'⟩
    | setHead p r s =>
      rw [show CacheCall.call (.write (.setHead p r s)) = (n!"set_head", [.int p, encRule id r, .set (s.map (encRule id))]) from rfl,
        callMethod_mut hp H.core.f_BasicCache_set_head rfl]
      have e := cache_set_head (W := H.world []) (n := n) (p := []) hp p r s
      change run Q _ _ _ _ = _ at e
      simp only [show (H.world []).vn = id from rfl] at e
      simp only [e]
      exact ⟨rfl, x.setHead p r s, writes_ok hx rfl, l, _, load_upd hp, m, m'.insert (fun _ _ e => e) r p _⟩
    | reinitialize r p =>
      rw [show CacheCall.call (.write (.reinitialize r p)) = (n!"reinitialize_eval_set", [encRule id r, .int p]) from rfl,
        callMethod_mut hp H.core.f_BasicCache_reinitialize_eval_set rfl]
      have e := cache_reinit (W := H.world []) (n := n) (p := []) hp m' r p
      change run Q _ _ _ _ = _ at e
      simp only [show (H.world []).vn = id from rfl] at e
      simp only [e]
      have h1 := (hneed (r, p) r).1
      cases hr : x.heads r p with
      | none =>
        have : lastInvolved r p ops = none := h1.mpr (by simp [Cache.reinitializeEvalSet, hr])
        simp only [CacheStep, Answers, this, if_true]
      | some y =>
        have : ¬ lastInvolved r p ops = none := fun hn => by
          have := h1.mp hn
          simp [Cache.reinitializeEvalSet, hr] at this
        exact ⟨by simp [Answers, this], x.putHead r p { y with evalSet := y.involved }, writes_ok hx (by simp [CacheOp.run, Cache.reinitializeEvalSet, hr]),
          l, _, load_upd hp, m, m'.insert (fun _ _ e => e) r p _⟩
    | remove k r =>
      rw [show CacheCall.call (.write (.remove k r)) = (n!"remove_from_eval_set", [encAt id k, encRule id r]) from rfl,
        callMethod_mut hp H.core.f_BasicCache_remove_from_eval_set rfl]
      have e := cache_remove (W := H.world []) (n := n) (p := []) hp m' k r
      change run Q _ _ _ _ = _ at e
      simp only [show (H.world []).vn = id from rfl] at e
      simp only [e]
      have h1 := (hneed k r).2.1
      cases hr : x.heads k.1 k.2 with
      | none =>
        have : lastInvolved k.1 k.2 ops = none := h1.mpr (by simp [Cache.removeFromEvalSet, hr])
        simp only [CacheStep, Answers, this, if_true]
      | some y =>
        have : ¬ lastInvolved k.1 k.2 ops = none := fun hn => by
          have := h1.mp hn
          simp [Cache.removeFromEvalSet, hr] at this
        exact ⟨by simp [Answers, this], x.putHead k.1 k.2 { y with evalSet := y.evalSet.filter (· ≠ r) },
          writes_ok hx (by simp [CacheOp.run, Cache.removeFromEvalSet, hr]),
          l, _, load_upd hp, m, m'.insert (fun _ _ e => e) k.1 k.2 _⟩
    | setActive y =>
      rw [show CacheCall.call (.write (.setActive y)) = (n!"set_current_active_lr_position", [encActive id y]) from
        congrArg (fun v => (n!"set_current_active_lr_position", [v])) (encActive_pair y),
        callMethod_mut hp H.core.f_BasicCache_set_current_active_lr_position rfl]
      have e := cache_set_active (W := H.world []) (n := n) (p := []) hp y
      change run Q _ _ _ _ = _ at e
      simp only [show (H.world []).vn = id from rfl] at e
      simp only [e]
      exact ⟨rfl, x.setActive y, writes_ok hx rfl, l, l', load_upd hp, m, m'⟩
  | check r p =>
    rw [show CacheCall.call (.check r p) = (n!"check", [encRule id r, .int p]) from rfl]
    have hm : callMethod Q (run Q (n + 1)) n!"check" (.ref a []) [encRule id r, .int p] h =
      run Q (n + 1) (.fn (some n!"BasicCache") n!"check") [cacheVal id l l' x.active, encRule id r, .int p] h := callMethod_ref hp H.core.f_BasicCache_check rfl
    rw [hm]
    have e := cache_check (l := l) (l' := l') (act := x.active) (H.world []) n h r p
    change run Q _ _ [cacheVal id l l' x.active, encRule id r, _] _ = .ok (optV (lookupV (encAt id (r, p)) l)) h at e
    rw [e, m r p]
    refine ⟨?_, x, hx, l, l', hp, m, m'⟩
    simp only [Answers, ← C44_memo_last_write_wins ops x hx r p, Cache.check]
    cases x.memo r p <;> rfl
  | hasHead r p =>
    rw [show CacheCall.call (.hasHead r p) = (n!"check_head", [encRule id r, .int p]) from rfl]
    have hm : callMethod Q (run Q (n + 1)) n!"check_head" (.ref a []) [encRule id r, .int p] h =
      run Q (n + 1) (.fn (some n!"BasicCache") n!"check_head") [cacheVal id l l' x.active, encRule id r, .int p] h := callMethod_ref hp H.core.f_BasicCache_check_head rfl
    rw [hm]
    have e := cache_check_head (l := l) (l' := l') (act := x.active) (H.world []) n h r p
    change run Q _ _ [cacheVal id l l' x.active, encRule id r, _] _ = .ok (optV (lookupV (encAt id (r, p)) l')) h at e
    rw [e, m' r p]
    refine ⟨?_, x, hx, l, l', hp, m, m'⟩
    have h1 := (after_spec ops x hx).2.2 r p
    cases hh : x.heads r p with
    | none =>
      rw [hh] at h1
      simp only [Answers, h1]
      rfl
    | some y =>
      rw [hh] at h1
      obtain ⟨hp', hr'⟩ := heads_named ops x hx r p y hh
      simp only [Answers, h1.1]
      refine ⟨y.evalSet, ?_, h1.2⟩
      simp only [Option.map_some, optV, encHead, headVal, hp', hr']
      rfl
  | involved k r =>
    rw [show CacheCall.call (.involved k r) = (n!"rule_in_involved_set", [encAt id k, encRule id r]) from rfl]
    have hm : callMethod Q (run Q (n + 1)) n!"rule_in_involved_set" (.ref a []) [encAt id k, encRule id r] h =
      run Q (n + 1) (.fn (some n!"BasicCache") n!"rule_in_involved_set") [cacheVal id l l' x.active, encAt id k, encRule id r] h :=
      callMethod_ref hp H.core.f_BasicCache_rule_in_involved_set rfl
    rw [hm]
    have e := cache_in_involved (l := l) (act := x.active) (H.world []) n h m' k r
    change run Q _ _ [cacheVal id l l' x.active, encAt id k, encRule id r] _ = _ at e
    rw [e]
    have h1 := (hneed k r).2.2.2
    have h2 := (C44_heads ops x hx).2.2.2.1 k r
    unfold Cache.ruleInInvolvedSet at h1 h2
    cases hh : x.heads k.1 k.2 with
    | none =>
      have : lastInvolved k.1 k.2 ops = none := h1.mpr (by rw [hh])
      simp only [CacheStep, Answers, this, Option.map_none]
    | some y =>
      obtain ⟨inv, hi, hb⟩ := h2 (y.involved.contains r) (by rw [hh])
      refine ⟨?_, x, hx, l, l', hp, m, m'⟩
      have : y.involved.contains r = decide (r ∈ inv) := Bool.eq_iff_iff.mpr (by rw [hb]; simp)
      simp only [Answers, hi, Option.map_some, this]
  | inEval k r =>
    rw [show CacheCall.call (.inEval k r) = (n!"rule_in_eval_set", [encAt id k, encRule id r]) from rfl]
    have hm : callMethod Q (run Q (n + 1)) n!"rule_in_eval_set" (.ref a []) [encAt id k, encRule id r] h =
      run Q (n + 1) (.fn (some n!"BasicCache") n!"rule_in_eval_set") [cacheVal id l l' x.active, encAt id k, encRule id r] h :=
      callMethod_ref hp H.core.f_BasicCache_rule_in_eval_set rfl
    rw [hm]
    have e := cache_in_eval (l := l) (act := x.active) (H.world []) n h m' k r
    change run Q _ _ [cacheVal id l l' x.active, encAt id k, encRule id r] _ = _ at e
    rw [e]
    have h1 := (hneed k r).2.2.1
    have h2 := (C44_heads ops x hx).2.2.2.2 k r
    unfold Cache.ruleInEvalSet at h1 h2
    cases hh : x.heads k.1 k.2 with
    | none =>
      have : lastInvolved k.1 k.2 ops = none := h1.mpr (by rw [hh])
      simp only [CacheStep, Answers, this, Option.map_none]
    | some y =>
      obtain ⟨inv, hi, hb⟩ := h2 (y.evalSet.contains r) (by rw [hh])
      refine ⟨?_, x, hx, l, l', hp, m, m'⟩
      have : y.evalSet.contains r = (decide (r ∈ inv) && !removedSince k.1 k.2 r ops) := Bool.eq_iff_iff.mpr (by rw [hb]; simp)
      simp only [Answers, hi, Option.map_some, this]
  | active =>
    rw [show CacheCall.call .active = (n!"get_current_active_lr_position", []) from rfl]
    have hm : callMethod Q (run Q (n + 1)) n!"get_current_active_lr_position" (.ref a []) [] h =
      run Q (n + 1) (.fn (some n!"BasicCache") n!"get_current_active_lr_position") [cacheVal id l l' x.active] h :=
      callMethod_ref hp H.core.f_BasicCache_get_current_active_lr_position rfl
    rw [hm]
    have e := cache_get_active (l := l) (l' := l') (act := x.active) (H.world []) n h
    change run Q _ _ [cacheVal id l l' x.active] _ = .ok (encActive id x.active) h at e
    rw [e]
    exact ⟨by simp only [Answers, ← (C44_heads ops x hx).1, encActive_pair], x, hx, l, l', hp, m, m'⟩

theorem cache_calls (cs : List CacheCall) : ∀ (ops : List (CacheOp Name)) (x : Cache Name) (h : Heap), Cache.after ops = .ok x → CacheAt x a h →
    (runCacheCalls Q (n + 1) a cs h = .panic ∧ AllAnswer ops cs none) ∨ ∃ vs h', runCacheCalls Q (n + 1) a cs h = .ok vs h' ∧ AllAnswer ops cs (some vs) := by
  induction cs with
  | nil => intro ops x h _ _; exact .inr ⟨[], h, rfl, .nil⟩
  | cons c cs ih =>
    intro ops x h hx hc
    have hs := cache_call (n := n) H hx hc c
    rw [runCacheCalls]
    generalize callMethod Q (run Q (n + 1)) c.call.1 (.ref a []) c.call.2 h = r at hs
    cases r with
    | panic => exact .inl ⟨rfl, .panic hs⟩
    | ok v h' =>
      obtain ⟨ha, y, hy, hc'⟩ := hs
      rw [Res.bind_ok]
      rcases ih _ y h' hy hc' with ⟨e, hn⟩ | ⟨vs, h'', e, hv⟩
      · rw [e]; exact .inl ⟨rfl, .later ha hn⟩
      · rw [e]; exact .inr ⟨_, _, rfl, .ok ha hv⟩
    | _ => exact hs.elim

theorem cache_run (cs : List CacheCall) :
    (runCache Q (n + 1) cs = .panic ∧ AllAnswer [] cs none) ∨ ∃ vs h', runCache Q (n + 1) cs = .ok vs h' ∧ AllAnswer [] cs (some vs) := by
  have e := cache_new_run (W := H.world []) (n := n) (h := [])
  change run Q _ _ _ _ = _ at e
  rw [runCache, e, Res.bind_ok]
  exact cache_calls H cs [] .new _ rfl ⟨[], [], rfl, fun _ _ => rfl, fun _ _ => rfl⟩

theorem cacheWorks : CacheWorks Q where
  ok cs n vs h e := by
    rcases cache_run (n := n) H cs with ⟨e', -⟩ | ⟨vs', h', e', ha⟩
    · rw [e] at e'; cases e'
    · rw [e] at e'; cases e'; exact ha
  panics cs n e := by
    rcases cache_run (n := n) H cs with ⟨-, ha⟩ | ⟨vs', h', e', ha⟩
    · exact ha
    · rw [e] at e'; cases e'
  ends cs n := by
    rcases cache_run (n := n) H cs with ⟨e', -⟩ | ⟨vs', h', e', ha⟩
    · exact .inl e'
    · exact .inr ⟨_, _, e'⟩
end

/-! ### Crates -/
section
variable {R U : Type} {br : Bool} {us : User U} {vs : List Bytes} {funs : List Text.Fun}

/-- Three more functions of the core. -/
theorem hasStores (hu : UserOK us.items us.hooks) (h : NamesOK us.items vs funs) (hg : utf8Of "Grammar" ∈ vs) : HasStores (progOf us br vs funs) := by
  have key : ∀ (t x : Name) (f : Fn), t ≠ n!"Rules" → Prog.fns Ast.core (some t) x = [f] → (progOf us br vs funs).fn? (some t) x = some f := by
    intro t x f ht hf
    refine fn?_core hf ?_
    rw [fns_append, hu.fns_nil (by rw [hf]; simp), genOf_fns_some _ _ _ _ _ ht]; rfl
  refine ⟨hasCoreGen hu h, key _ _ _ (by decide) (by rfl), key _ _ _ (by decide) (by rfl), key _ _ _ (by decide) (by rfl), key _ _ _ (by decide) (by rfl), ?_⟩
  rw [Prog.isVariant, List.any_eq_true]
  refine ⟨.enum n!"Rules" (vs.map nameOf), by simp [progOf, genOf, rulesItems], ?_⟩
  have hn : nameOf (utf8Of "Grammar") = n!"Grammar" := by decide +kernel
  rw [← hn]
  simp only [true_and, decide_eq_true_eq, List.contains_iff_mem]
  exact List.mem_map_of_mem hg

theorem crateCheck_stores {core user : List Bytes} {us : User U} (hcore : readCrate core = some Ast.core)
    (huser : readCrate user = some us.items) {rulesRs parserRs : Bytes} {rules : List R}
    {name : R → Bytes} {enum : List Bytes} {P : Parser R U} (hu : UserSim us P)
    (h : crateCheck us.items us.hooks rulesRs parserRs rules P.body name enum P.grammar = true) :
    ∃ Q, readCrate (core ++ user ++ [rulesRs, parserRs]) = some Q ∧ HasStores Q := by
  unfold crateCheck at h
  split at h
  · cases h
  · rename_i items _
    simp only [Bool.and_eq_true, decide_eq_true_eq, List.all_eq_true, List.any_eq_true] at h
    obtain ⟨⟨⟨⟨⟨⟨⟨h1, h2⟩, h3⟩, h4⟩, h5⟩, h7⟩, -⟩, h6⟩ := h
    refine ⟨progOf us true enum (Text.funsOf items), ?_, hasStores hu.ok (namesOK_ok h3) h7⟩
    rw [List.append_assoc]
    refine readCrate_append hcore (readCrate_append huser ?_)
    simp [readCrate, h1, h2]
end

end PP.Mini
