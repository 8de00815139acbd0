import Verif.Model.Hooked
import Verif.Lemmas.Mini.Check
import Verif.Model.Parsers

/-! # user_state.rs and hooked_calls.rs of example 11 -/
namespace PP.Mini
open PP.Gen
attribute [local congr] Res.bind_congr loopN_congr forN_congr

theorem boundary (bs : Bytes) (i : Nat) : betweenChars bs i = Source.isCharBoundary bs i := by
  unfold betweenChars Source.isCharBoundary
  cases h : bs[i]? with
  | none =>
    have := List.getElem?_eq_none_iff.mp h
    have e : (decide (i = bs.length)) = (i == bs.length) := by rw [Bool.eq_iff_iff]; simp
    have e' : (i == 0) = true → (i == bs.length) = true := by simp; omega
    simp only [e, Bool.or_false]
    cases h0 : i == 0
    · simp
    · simp [e' h0]
  | some c =>
    have hl := (List.getElem?_eq_some_iff.mp h).1
    have hc := c.toNat_lt
    rw [Bool.eq_iff_iff]
    have : i ≠ bs.length := by omega
    simp only [decide_eq_true_eq, Bool.or_eq_true, beq_iff_eq, Bool.not_eq_true', beq_eq_false_iff_ne, this, or_false]
    omega

section
variable {R U : Type}

/-- The result of `get_string`. -/
def encSlice (h : Heap) : Out (Option (List UInt8)) → Res Val
  | .ok none => .ok .none h
  | .ok (some l) => .ok (.some (.str l)) h
  | .panic _ => .panic
  | .oof => .oof

theorem get_string_run (W : World R U) (n p q : Nat) (h : Heap) :
    run W.Q (n + 1) (.fn (some n!"Source") n!"get_string") [encSource W.src, .int p, .int q] h = encSlice h (W.src.getString p q) := by
  rw [run]
  simp only [W.core.f_Source_get_string, Ast.Source.get_string]
  by_cases hp : p > W.src.len
  · mini [encSource, project, follow, loadV, load, binop, hp, decide_true, global, Source.getString, encSlice, true_or]
  · by_cases hq : q > W.src.len
    · mini [encSource, project, follow, loadV, load, binop, hp, hq, decide_true, decide_false, global, Source.getString, encSlice, or_true]
    · by_cases hs : p ≤ q ∧ q ≤ W.src.bytes.length ∧ Source.isCharBoundary W.src.bytes p ∧ Source.isCharBoundary W.src.bytes q
      · have e : (W.src.bytes.take q).drop p = (W.src.bytes.drop p).take (q - p) := List.drop_take ..
        mini [encSource, project, follow, loadV, load, binop, hp, hq, decide_false, or_self, Source.getString, Source.strSlice, castTo, slicing, boundary, hs,
          callGlobal, encSlice, e, and_self, Out.bind]
      · mini [encSource, project, follow, loadV, load, binop, hp, hq, decide_false, or_self, Source.getString, Source.strSlice, castTo, slicing, boundary, hs,
          callGlobal, encSlice, Out.bind]

theorem get_string_call (W : World R U) (n p q : Nat) (h : Heap) :
    callMethod W.Q (run W.Q (n + 1)) n!"get_string" (encSource W.src) [.int p, .int q] h = encSlice h (W.src.getString p q) := by
  have e := get_string_run W n p q h
  simp only [encSource] at e
  simp only [callMethod, encSource, follow, loadV, W.core.f_Source_get_string, Ast.Source.get_string, e]
end

/-- The items of user_state.rs and hooked_calls.rs in example 11. -/
abbrev ex11Items : Prog := Ast.ex11UserStateItems ++ Ast.ex11HookedCallsItems

/-- The set of lines. -/
def encLines (l : List Bytes) : Val := .struct n!"UserState" [(0, .set (l.map .str))]

/-- The part of example 11 that its user writes. -/
def ex11User : User (List (List UInt8)) where
  items := ex11Items
  hooks := [utf8Of "unique_line_cache"]
  clo _ args := cloOf Ast.Ex11.unique_line_cache args
  init := encLines []
  ur u v := ∃ l : List Bytes, v = encLines l ∧ ∀ x, x ∈ l ↔ x ∈ u

theorem memV_str (x : Bytes) (l : List Bytes) : memV (.str x) (l.map .str) = decide (x ∈ l) := by
  induction l with
  | nil => rfl
  | cons y l ih =>
    have e : valEq (.str y) (.str x) = some (decide (y = x)) := rfl
    have e' : memV (.str x) ((y :: l).map .str) = (decide (y = x) || memV (.str x) (l.map .str)) := by
      rw [List.map_cons, memV, List.any_cons, e]
      simp only [Option.some.injEq, decide_eq_true_eq]
      rfl
    rw [e', ih, Bool.eq_iff_iff]
    rw [Bool.or_eq_true, decide_eq_true_eq, decide_eq_true_eq, decide_eq_true_eq, List.mem_cons, eq_comm]

theorem ex11_fn (Q : Prog) (H : HasUser ex11Items Q) : Q.fn? none n!"unique_line_cache" = some Ast.Ex11.unique_line_cache :=
  H.fn _ _ _ (show Prog.fn? ex11Items none n!"unique_line_cache" = some Ast.Ex11.unique_line_cache by decide +kernel)

section
variable {R : Type} {W : World R (List (List UInt8))}

theorem project_fst {a b : Val} {h : Heap} : project 0 (.tuple [a, b]) h = .ok a h := rfl
theorem project_snd {a b : Val} {h : Heap} : project 1 (.tuple [a, b]) h = .ok b h := rfl

theorem slice_cases (s : Source) (p q : Nat) : (∃ x, s.getString p q = .panic x) ∨ s.getString p q = .ok none ∨ ∃ l, s.getString p q = .ok (some l) := by
  unfold Source.getString Source.strSlice
  split
  · exact .inr (.inl rfl)
  · split
    · exact .inr (.inr ⟨_, rfl⟩)
    · exact .inl ⟨_, rfl⟩

/-- The user state is replaced. -/
theorem good_user {U : Type} {W : World R U} {st : St R U} {h : Heap} (g : W.Good st h) {u : U} {w : Val} (hw : W.ur u w) :
    W.Good { st with user := u } (h.set W.u w) where
  ctx := let ⟨l, l', e, m, m'⟩ := g.ctx; ⟨l, l', by rw [List.getElem?_set_ne W.ne.symm]; exact e, m, m'⟩
  user := ⟨w, by rw [List.getElem?_set_self g.lt_u], hw⟩
  len := g.len
theorem frame_user {U : Type} {W : World R U} {h h' : Heap} (f : W.Frame h h') (w : Val) : W.Frame h (h'.set W.u w) where
  le := by simpa using f.le
  eq i hi ha hu := by rw [List.getElem?_set_ne (Ne.symm hu)]; exact f.eq i hi ha hu

theorem unique_line_sim (hur : W.ur = ex11User.ur) {d : Dir} {n : Nat} {v : Val} {g : PFn R (List (List UInt8))} (parent₀ pos₀ : Nat)
    (hg : W.Fn d (n + 1) v g) :
    W.Fn d (n + 2) (cloOf Ast.Ex11.unique_line_cache (hookArgs W parent₀ pos₀ v)) fun parent pos st =>
      runHook g parent (uniqueLineCache W.src pos st.user) st := by
  intro parent pos st h hst
  simp only [cloOf, Ast.Ex11.unique_line_cache, hookArgs, List.zip_cons_cons, List.zip_nil_right, List.reverse_cons, List.reverse_nil, List.nil_append,
    List.cons_append, run]
  mini [List.map_cons, List.map_nil, true_or, uniqueLineCache, runHook]
  refine (hg parent pos st h hst).result ?_
  rintro _ h' ⟨b, q, st'⟩ ⟨rfl, hg', hfr⟩
  mini [project_fst, project_snd]
  cases b
  · mini [uniqueLineAfter, runHook, project_fst, project_snd]
    exact .ok ⟨rfl, hg', hfr⟩
  · mini [uniqueLineAfter, get_string_call]
    rcases slice_cases W.src pos q with ⟨x, e⟩ | e | ⟨l, e⟩
    · rw [e]; mini [encSlice, runHook]; exact .panic
    · rw [e]; mini [encSlice, runHook]; exact .panic
    · obtain ⟨w, hw, hu⟩ := hg'.user
      rw [hur] at hu
      obtain ⟨ls, rfl, hls⟩ := hu
      have h1 : loadV (h' ++ [Val.ref W.u []]) (.ref W.u []) = some (encLines ls) := by
        simp [loadV, List.getElem?_append_left hg'.lt_u, hw, getAt_nil]
      have h2 : project 0 (.ref h'.length []) (h' ++ [Val.ref W.u []]) = .ok (.ref W.u [.fld 0]) (h' ++ [Val.ref W.u []]) := by
        simp [project, follow, loadV, getAt_nil]
      have h3 : loadV (h' ++ [Val.ref W.u []]) (.ref W.u [.fld 0]) = some (.set (ls.map .str)) := by
        simp [loadV, List.getElem?_append_left hg'.lt_u, hw, encLines, getAt_cons, getAt_nil, stepAt]
      have h4 : ∀ x, callMethod W.Q (run W.Q (n + 1)) n!"insert" (.ref W.u [.fld 0]) [x] (h' ++ [Val.ref W.u []]) =
          method n!"insert" (.ref W.u [.fld 0]) (.set (ls.map .str)) [x] (h' ++ [Val.ref W.u []]) := by
        intro x
        simp only [callMethod, follow, h3]
      rw [e]
      mini [encSlice, h2, h4]
      have h5 : ∀ l' : List Bytes, store W.u [.fld 0] (.set (l'.map .str)) (h' ++ [Val.ref W.u []]) =
          .ok .unit (h'.set W.u (encLines l') ++ [Val.ref W.u []]) := by
        intro l'
        rw [store, List.getElem?_append_left hg'.lt_u, hw, ← List.set_append_left _ _ hg'.lt_u]
        rfl
      by_cases hm : l ∈ st'.user
      · have hm' : l ∈ ls := (hls l).mpr hm
        mini [memV_str, hm, hm', decide_true, h5, runHook]
        refine .ok ⟨rfl, ?_, (frame_user hfr _).push _⟩
        exact (good_user (W := W) (st := st') hg' (u := st'.user) (by rw [hur]; exact ⟨ls, rfl, hls⟩)).push _
      · have hm' : l ∉ ls := fun h => hm ((hls l).mp h)
        have e2 : List.map Val.str ls ++ [Val.str l] = List.map Val.str (ls ++ [l]) := by simp
        mini [memV_str, hm, hm', decide_false, e2, h5, runHook]
        refine .ok ⟨rfl, ?_, (frame_user hfr _).push _⟩
        refine (good_user (W := W) (st := st') hg' (u := l :: st'.user) (by
          rw [hur]
          refine ⟨ls ++ [l], rfl, fun x => ?_⟩
          have := hls x
          simp only [List.mem_append, List.mem_cons, List.not_mem_nil, or_false] at this ⊢
          rw [this, or_comm])).push _
end

theorem cloOf_ex11 (args : List Val) : ∃ ps b env, cloOf Ast.Ex11.unique_line_cache args = .clo ps b env := ⟨_, _, _, rfl⟩

/-- The user's part of example 11 does what the model says, for any rules. -/
theorem uniqueUserSim {R : Type} [DecidableEq R] (body : R → Expr R) (start : R) : UserSim ex11User (uniqueParser body start) where
  ok := userOK_ok (show userOK ex11Items [utf8Of "unique_line_cache"] = true by decide +kernel)
  hooks W H hur := by
    have hx : ∀ x ∈ ex11User.hooks, nameOf x = n!"unique_line_cache" := by
      intro x hx
      simp only [ex11User, List.mem_singleton] at hx
      subst hx
      decide +kernel
    refine ⟨fun x hx' parent pos v n h => ?_, fun x _ parent pos v h => rfl, fun x hx' d n v g parent pos hg hf => ?_⟩
    · rw [hx x hx']
      exact make_run (F := Ast.Ex11.unique_line_cache) (ex11_fn _ H) rfl rfl rfl n h
    · intro p q st h hst
      match n, hg, hf with
      | 0, _, hf => exact Sim.zero (k := 7) hf
      | 1, _, hf =>
        cases d with
        | complete => exact absurd (hf rfl) (by omega)
        | sound => exact .oofL rfl
      | n + 2, hg, _ => exact unique_line_sim hur parent pos (hg 1 (by omega) (by omega)) p q st h hst
  new W n h H := by
    rw [run, H.fn _ _ Ast.Ex11.UserState.new (show Prog.fn? ex11Items _ _ = _ by decide +kernel)]
    have ht := H.tuple.trans (show Prog.isTuple ex11Items n!"UserState" = true by decide +kernel)
    simp only [Ast.Ex11.UserState.new]
    mini [ht]
    rfl
  init := ⟨[], rfl, fun _ => Iff.rfl⟩

theorem ex11UserSim : UserSim ex11User ex11Parser := uniqueUserSim Ex11.body .r_grammar

end PP.Mini
