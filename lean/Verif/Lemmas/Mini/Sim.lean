import Verif.Spec.Mini.Encode
import Verif.Model.CoreAst
import Verif.Lemmas.Mini.Mono

/-! # Symbolic execution, and simulation of the model by runs -/
namespace PP.Mini

section
variable {α β γ : Type}
theorem Res.bind_ok (a : α) (h : Heap) (f : α → Heap → Res β) : (Res.ok a h).bind f = f a h := id rfl
theorem Res.bind_oof (f : α → Heap → Res β) : (Res.oof : Res α).bind f = .oof := rfl
theorem Res.bind_stuck (f : α → Heap → Res β) : (Res.stuck : Res α).bind f = .stuck := rfl
theorem Res.bind_panic (f : α → Heap → Res β) : (Res.panic : Res α).bind f = .panic := rfl
theorem Res.bind_brk (h : Heap) (f : α → Heap → Res β) : (Res.brk h : Res α).bind f = .brk h := rfl
theorem Res.bind_ret (v : Val) (h : Heap) (f : α → Heap → Res β) : (Res.ret v h : Res α).bind f = .ret v h := rfl
theorem Res.bind_assoc (x : Res α) (f : α → Heap → Res β) (g : β → Heap → Res γ) :
    (x.bind f).bind g = x.bind fun a h => (f a h).bind g := by cases x <;> rfl
theorem Res.bind_congr {x y : Res α} (f : α → Heap → Res β) (h : x = y) : x.bind f = y.bind f := h ▸ rfl
end

theorem loopN_congr (f : Heap → Res Val) (n : Nat) {h h' : Heap} (e : h = h') : loopN f n h = loopN f n h' := e ▸ rfl
theorem forN_congr (f : Val → Heap → Res Val) {l l' : List Val} (e : l = l') {h h' : Heap} (e' : h = h') : forN f l h = forN f l' h' := e ▸ e' ▸ rfl

theorem result_ok (v : Val) (h : Heap) : (Res.ok v h).result = .ok v h := rfl
theorem result_ret (v : Val) (h : Heap) : (Res.ret v h).result = .ok v h := rfl
theorem result_oof : (Res.oof).result = .oof := rfl
theorem result_panic : (Res.panic).result = .panic := rfl

theorem matchPat_var (x : Name) (v : Val) (env : Env) : matchPat (.var x) v env = some ((x, .val v) :: env) := by cases v <;> rfl
theorem matchPat_wild (v : Val) (env : Env) : matchPat .wild v env = some env := by cases v <;> rfl
theorem matchPat_tuple (xs : List Name) (vs : List Val) (env : Env) : matchPat (.tuple xs) (.tuple vs) env = bindAll xs vs env := rfl
theorem matchPat_none_none (env : Env) : matchPat .none .none env = some env := rfl
theorem matchPat_none_some (v : Val) (env : Env) : matchPat .none (.some v) env = none := rfl
theorem matchPat_some_none (x : Name) (env : Env) : matchPat (.some x) .none env = none := rfl
theorem matchPat_some_some (x : Name) (v : Val) (env : Env) : matchPat (.some x) (.some v) env = some ((x, .val v) :: env) := by cases v <;> rfl
theorem matchPat_someTuple_none (xs : List Name) (env : Env) : matchPat (.someTuple xs) .none env = none := rfl
theorem matchPat_someTuple_some (xs : List Name) (vs : List Val) (env : Env) :
    matchPat (.someTuple xs) (.some (.tuple vs)) env = bindAll xs vs env := rfl

theorem result_result (r : Res Val) : r.result.result = r.result := by cases r <;> rfl
theorem run_result (P : Prog) (n : Nat) (v : Val) (args : List Val) (h : Heap) : (run P n v args h).result = run P n v args h := by
  cases n with
  | zero => unfold run; rfl
  | succ n =>
    unfold run
    cases v with
    | clo ps b env => dsimp only; split <;> first | exact result_result _ | rfl
    | fn ty f => dsimp only; split <;> try (first | rfl | (split <;> first | exact result_result _ | rfl))
    | _ => rfl

/-! Values that are not places -/
theorem load_bool {b} {h} : load (.bool b) h = .ok (.bool b) h := rfl
theorem follow_bool {b} {h} : follow (.bool b) h = (.bool b) := rfl
theorem load_int {n} {h} : load (.int n) h = .ok (.int n) h := rfl
theorem follow_int {n} {h} : follow (.int n) h = (.int n) := rfl
theorem load_bytes {s} {h} : load (.bytes s) h = .ok (.bytes s) h := rfl
theorem follow_bytes {s} {h} : follow (.bytes s) h = (.bytes s) := rfl
theorem load_str {s} {h} : load (.str s) h = .ok (.str s) h := rfl
theorem follow_str {s} {h} : follow (.str s) h = (.str s) := rfl
theorem load_tuple {l} {h} : load (.tuple l) h = .ok (.tuple l) h := rfl
theorem follow_tuple {l} {h} : follow (.tuple l) h = (.tuple l) := rfl
theorem load_vec {l} {h} : load (.vec l) h = .ok (.vec l) h := rfl
theorem follow_vec {l} {h} : follow (.vec l) h = (.vec l) := rfl
theorem load_set {l} {h} : load (.set l) h = .ok (.set l) h := rfl
theorem follow_set {l} {h} : follow (.set l) h = (.set l) := rfl
theorem load_map {l} {h} : load (.map l) h = .ok (.map l) h := rfl
theorem follow_map {l} {h} : follow (.map l) h = (.map l) := rfl
theorem load_struct {t} {fs} {h} : load (.struct t fs) h = .ok (.struct t fs) h := rfl
theorem follow_struct {t} {fs} {h} : follow (.struct t fs) h = (.struct t fs) := rfl
theorem load_some {v} {h} : load (.some v) h = .ok (.some v) h := rfl
theorem follow_some {v} {h} : follow (.some v) h = (.some v) := rfl
theorem load_variant {t} {v} {h} : load (.variant t v) h = .ok (.variant t v) h := rfl
theorem follow_variant {t} {v} {h} : follow (.variant t v) h = (.variant t v) := rfl
theorem load_fn {t} {f} {h} : load (.fn t f) h = .ok (.fn t f) h := rfl
theorem follow_fn {t} {f} {h} : follow (.fn t f) h = (.fn t f) := rfl
theorem load_clo {ps} {b} {env} {h} : load (.clo ps b env) h = .ok (.clo ps b env) h := rfl
theorem follow_clo {ps} {b} {env} {h} : follow (.clo ps b env) h = (.clo ps b env) := rfl
theorem load_cell {a} {h} : load (.cell a) h = .ok (.cell a) h := rfl
theorem follow_cell {a} {h} : follow (.cell a) h = (.cell a) := rfl
theorem load_none {h} : load .none h = .ok .none h := rfl
theorem follow_none {h} : follow .none h = .none := rfl

/-! Methods of the library -/
theorem callMethod_int {Q call m args} {n} {h} : callMethod Q call m (.int n) args h = method m (.int n) (.int n) args h := rfl
theorem callMethod_bytes {Q call m args} {s} {h} : callMethod Q call m (.bytes s) args h = method m (.bytes s) (.bytes s) args h := rfl
theorem callMethod_str {Q call m args} {s} {h} : callMethod Q call m (.str s) args h = method m (.str s) (.str s) args h := rfl
theorem callMethod_vec {Q call m args} {l} {h} : callMethod Q call m (.vec l) args h = method m (.vec l) (.vec l) args h := rfl
theorem callMethod_set {Q call m args} {l} {h} : callMethod Q call m (.set l) args h = method m (.set l) (.set l) args h := rfl
theorem callMethod_map {Q call m args} {l} {h} : callMethod Q call m (.map l) args h = method m (.map l) (.map l) args h := rfl
theorem callMethod_some {Q call m args} {v} {h} : callMethod Q call m (.some v) args h = method m (.some v) (.some v) args h := rfl
theorem callMethod_none {Q call m args} {h} : callMethod Q call m .none args h = method m .none .none args h := rfl
theorem callMethod_cell {Q call m args} {a} {h} : callMethod Q call m (.cell a) args h = method m (.cell a) (.cell a) args h := rfl
theorem m_borrow_mut {pl a h} : method n!"borrow_mut" pl (.cell a) [] h = .ok (.ref a []) h := rfl
theorem m_str_len {pl bs h} : method n!"len" pl (.str bs) [] h = .ok (.int bs.length) h := rfl
theorem m_as_bytes {pl bs h} : method n!"as_bytes" pl (.str bs) [] h = .ok (.bytes bs) h := rfl
theorem m_bytes_len {pl bs h} : method n!"len" pl (.bytes bs) [] h = .ok (.int bs.length) h := rfl
theorem m_to_string {pl bs h} : method n!"to_string" pl (.str bs) [] h = .ok (.str bs) h := rfl
theorem m_try_into {pl n h} : method n!"try_into" pl (.int n) [] h = .ok (if n < 4294967296 then .some (.int n) else .none) h := rfl
theorem m_none_is_some {pl h} : method n!"is_some" pl .none [] h = .ok (.bool false) h := rfl
theorem m_none_unwrap {pl h} : method n!"unwrap" pl .none [] h = .panic := rfl
theorem m_none_copied {pl h} : method n!"copied" pl .none [] h = .ok .none h := rfl
theorem m_none_expect {pl x h} : method n!"expect" pl .none [x] h = .panic := rfl
theorem m_some_is_some {pl w h} : method n!"is_some" pl (.some w) [] h = .ok (.bool true) h := rfl
theorem m_some_unwrap {pl w h} : method n!"unwrap" pl (.some w) [] h = .ok w h := rfl
theorem m_some_copied {pl w h} : method n!"copied" pl (.some w) [] h = .ok (.some w) h := rfl
theorem m_some_expect {pl w x h} : method n!"expect" pl (.some w) [x] h = .ok w h := rfl
theorem m_vec_len {pl l h} : method n!"len" pl (.vec l) [] h = .ok (.int l.length) h := rfl
theorem m_vec_to_vec {pl l h} : method n!"to_vec" pl (.vec l) [] h = .ok (.vec l) h := rfl
theorem m_vec_push {a p l x h} : method n!"push" (.ref a p) (.vec l) [x] h = store a p (.vec (l ++ [x])) h := rfl
theorem m_set_clone {pl l h} : method n!"clone" pl (.set l) [] h = .ok (.set l) h := rfl
theorem m_set_contains {pl l x h} : method n!"contains" pl (.set l) [x] h = .ok (.bool (memV x l)) h := rfl
theorem m_set_insert {a p l x h} : method n!"insert" (.ref a p) (.set l) [x] h = (store a p (.set (if memV x l then l else l ++ [x])) h).bind fun _ h => .ok (.bool (!memV x l)) h := rfl
theorem m_set_remove {a p l x h} : method n!"remove" (.ref a p) (.set l) [x] h = (store a p (.set (l.filter fun y => valEq y x ≠ some true)) h).bind fun _ h => .ok (.bool (memV x l)) h := rfl

/-- Symbolic execution. -/
macro "mini" : tactic => `(tactic| simp only [ev, evs, evFlds, evArms, evBlk, bindAll, List.lookup, Nat.reduceBEq, Nat.reduceEqDiff,
  Res.bind_ok, Res.bind_oof, Res.bind_stuck, Res.bind_panic, Res.bind_brk, Res.bind_ret, Res.bind_assoc, result_ok, result_ret, result_oof, result_panic,
  matchPat_var, matchPat_wild, matchPat_tuple, matchPat_none_none, matchPat_none_some, matchPat_some_none, matchPat_some_some,
  matchPat_someTuple_none, matchPat_someTuple_some, reduceIte, Bool.false_eq_true, Bool.not_true, Bool.not_false, reduceCtorEq, run_result,
  callGlobal, builtin,
  load_bool, follow_bool, load_int, follow_int, load_str, follow_str, load_bytes, follow_bytes, load_tuple, follow_tuple, load_vec, follow_vec, load_set, follow_set, load_map, follow_map, load_struct, follow_struct, load_some, follow_some, load_variant, follow_variant, load_fn, follow_fn, load_clo, follow_clo, load_cell, follow_cell, load_none, follow_none,
  callMethod_int, callMethod_str, callMethod_bytes, callMethod_vec, callMethod_set, callMethod_map, callMethod_some, callMethod_none, callMethod_cell, m_borrow_mut, m_str_len, m_as_bytes, m_bytes_len, m_to_string, Bool.false_or, Bool.false_and, Bool.true_or, Bool.true_and, m_try_into, m_none_is_some, m_none_unwrap, m_none_copied, m_none_expect, m_some_is_some, m_some_unwrap, m_some_copied, m_some_expect, m_vec_len, m_vec_to_vec, m_vec_push, m_set_clone, m_set_contains, m_set_insert, m_set_remove])

open Lean.Parser.Tactic in
macro "mini" "[" ts:simpLemma,* "]" : tactic => `(tactic| simp only [ev, evs, evFlds, evArms, evBlk, bindAll, List.lookup, Nat.reduceBEq, Nat.reduceEqDiff,
  Res.bind_ok, Res.bind_oof, Res.bind_stuck, Res.bind_panic, Res.bind_brk, Res.bind_ret, Res.bind_assoc, result_ok, result_ret, result_oof, result_panic,
  matchPat_var, matchPat_wild, matchPat_tuple, matchPat_none_none, matchPat_none_some, matchPat_some_none, matchPat_some_some,
  matchPat_someTuple_none, matchPat_someTuple_some, reduceIte, Bool.false_eq_true, Bool.not_true, Bool.not_false, reduceCtorEq, run_result,
  callGlobal, builtin,
  load_bool, follow_bool, load_int, follow_int, load_str, follow_str, load_bytes, follow_bytes, load_tuple, follow_tuple, load_vec, follow_vec, load_set, follow_set, load_map, follow_map, load_struct, follow_struct, load_some, follow_some, load_variant, follow_variant, load_fn, follow_fn, load_clo, follow_clo, load_cell, follow_cell, load_none, follow_none,
  callMethod_int, callMethod_str, callMethod_bytes, callMethod_vec, callMethod_set, callMethod_map, callMethod_some, callMethod_none, callMethod_cell, m_borrow_mut, m_str_len, m_as_bytes, m_bytes_len, m_to_string, Bool.false_or, Bool.false_and, Bool.true_or, Bool.true_and, m_try_into, m_none_is_some, m_none_unwrap, m_none_copied, m_none_expect, m_some_is_some, m_some_unwrap, m_some_copied, m_some_expect, m_vec_len, m_vec_to_vec, m_vec_push, m_set_clone, m_set_contains, m_set_insert, m_set_remove, $ts,*])

/-- Soundness: every result of a run is one of the model.  Completeness: every result of the model is one of a run. -/
inductive Dir where
  | sound | complete
  deriving DecidableEq

/-- Enough fuel, for completeness. -/
def Fuel (d : Dir) (n k : Nat) : Prop := d = .complete → k ≤ n

/-- The outcomes of a run and of the model agree, except that one of them may have run out of fuel. -/
inductive Sim (d : Dir) {α β : Type} (K : α → Heap → β → Prop) : Res α → Out β → Prop
  | oofL {o} : d = .sound → Sim d K .oof o
  | oofR {r} : d = .complete → Sim d K r .oof
  | panic {p} : Sim d K .panic (.panic p)
  | ok {a h b} : K a h b → Sim d K (.ok a h) (.ok b)

section
variable {d : Dir} {α α' β β' : Type} {K : α → Heap → β → Prop} {K' : α' → Heap → β' → Prop}

theorem Sim.zero {Q : Prog} {k : Nat} {K : Val → Heap → β → Prop} {v args h} {o : Out β} (hf : Fuel d 0 (k + 1)) : Sim d K (run Q 0 v args h) o := by
  unfold run
  cases d with
  | sound => exact .oofL rfl
  | complete => exact absurd (hf rfl) (by omega)

theorem Sim.bind {x : Res α} {y : Out β} {f : α → Heap → Res α'} {g : β → Out β'} (h : Sim d K x y)
    (hf : ∀ a h b, K a h b → Sim d K' (f a h) (g b)) : Sim d K' (x.bind f) (y >>= g) := by
  cases h with
  | oofL e => exact .oofL e
  | oofR e => exact .oofR e
  | panic => exact .panic
  | ok k => exact hf _ _ _ k

theorem Sim.result {x : Res α} {y : Out β} {f : α → Heap → Res Val} {K' : Val → Heap → β' → Prop} {g : β → Out β'} (h : Sim d K x y)
    (hf : ∀ a h b, K a h b → Sim d K' (f a h).result (g b)) : Sim d K' (x.bind f).result (y >>= g) := by
  cases h with
  | oofL e => exact .oofL e
  | oofR e => exact .oofR e
  | panic => exact .panic
  | ok k => exact hf _ _ _ k

theorem Sim.result' {x : Res α} {y : Out β} {f : α → Heap → Res Val} {K' : Val → Heap → β → Prop} (h : Sim d K x y)
    (hf : ∀ a h b, K a h b → Sim d K' (f a h).result (.ok b)) : Sim d K' (x.bind f).result y := by
  cases h with
  | oofL e => exact .oofL e
  | oofR e => exact .oofR e
  | panic => exact .panic
  | ok k => exact hf _ _ _ k

theorem Sim.mono {K' : α → Heap → β → Prop} {x : Res α} {y : Out β} (h : Sim d K x y) (hk : ∀ a h b, K a h b → K' a h b) : Sim d K' x y := by
  cases h with
  | oofL e => exact .oofL e
  | oofR e => exact .oofR e
  | panic => exact .panic
  | ok k => exact .ok (hk _ _ _ k)

/-- With less fuel. -/
theorem Sim.less {x x' : Res α} {y : Out β} (h : Sim d K x y) (hl : x'.le x) (he : d = .sound ∨ x' = x) : Sim d K x' y := by
  rcases he with e | e
  · rcases hl with l | l
    · exact l ▸ .oofL e
    · exact l ▸ h
  · exact e ▸ h
end

/-- Enough fuel for a computation that is known to end. -/
theorem Sim.fuel {Q : Prog} {d : Dir} {β : Type} {K : Val → Heap → β → Prop} {k n : Nat} {v args h} {o : Out β} (hf : Fuel d n k)
    (hs : ∀ m, Sim d K (run Q (m + k) v args h) o) : Sim d K (run Q n v args h) o := by
  by_cases hk : k ≤ n
  · obtain ⟨m, rfl⟩ : ∃ m, n = m + k := ⟨n - k, by omega⟩
    exact hs m
  · refine (hs 0).less (run_le (by omega) _ _ _) (.inl ?_)
    cases d with
    | sound => rfl
    | complete => exact absurd (hf rfl) hk

end PP.Mini
