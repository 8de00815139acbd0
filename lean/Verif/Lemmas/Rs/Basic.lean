import Verif.Spec.Rs.Encode
import Verif.Lemmas.Rs.Prog
import Lean.Meta.Tactic.Simp.Simproc

/-! # Executing the generator's text: equations -/
namespace PP.Rs
open PP.Gen

@[simp] theorem Res.bind_ok (v env k) : (Res.ok v env).bind k = k v env := rfl
@[simp] theorem Res.bind_panic (k) : Res.panic.bind k = .panic := rfl
@[simp] theorem Res.bind_ret (v env k) : (Res.ret v env).bind k = .ret v env := rfl
@[simp] theorem Res.bind_brk (env k) : (Res.brk env).bind k = .brk env := rfl
@[simp] theorem Res.bind_cont (env k) : (Res.cont env).bind k = .cont env := rfl
@[simp] theorem Res.drop_ok (n v env) : (Res.ok v env).drop n = .ok v (env.drop n) := rfl
@[simp] theorem Res.drop_panic (n) : Res.panic.drop n = .panic := rfl
@[simp] theorem Res.drop_ret (n v env) : (Res.ret v env).drop n = .ret v (env.drop n) := rfl
@[simp] theorem Res.drop_brk (n env) : (Res.brk env).drop n = .brk (env.drop n) := rfl
@[simp] theorem Res.drop_cont (n env) : (Res.cont env).drop n = .cont (env.drop n) := rfl
@[simp] theorem Res.result_ok (v env) : (Res.ok v env).result = .ok v (env.map (·.2)) := rfl
@[simp] theorem Res.result_ret (v env) : (Res.ret v env).result = .ok v (env.map (·.2)) := rfl
@[simp] theorem Res.result_panic : Res.panic.result = .panic := rfl
theorem Res.ifMatch_some (bs f r) : Res.ifMatch (.some bs) f r = f bs := rfl
theorem Res.ifMatch_none (f r) : Res.ifMatch .none f r = r := rfl
theorem Res.ifTrue_true (a b) : Res.ifTrue (.bool true) a b = a := rfl
theorem Res.ifTrue_false (a b) : Res.ifTrue (.bool false) a b = b := rfl
theorem Res.withItems_some (vs f) : Res.withItems (.some vs) f = f vs := rfl
theorem Res.ofOpt_some (env v) : Res.ofOpt env (.some v) = .ok v env := rfl
theorem Res.ofEnv_some (env v) : Res.ofEnv v (.some env) = .ok v env := rfl
theorem Res.ofLib_ok (e env v) : Res.ofLib e env (.ok v .none) = .ok v env := rfl
theorem Res.ofLib_mut (e env v r) : Res.ofLib e env (.ok v (.some r)) = .ofEnv v (assign e r env) := rfl
theorem Res.ofLib_panic (e env) : Res.ofLib e env .panic = .panic := rfl
theorem Res.ofCall_ok (bs es env v ps) : Res.ofCall bs es env (.ok v ps) = .ofEnv v (writeBack bs es ps env) := rfl
theorem Res.ofCall_panic (bs es env) : Res.ofCall bs es env .panic = .panic := rfl
theorem pmatch_wild (v) : pmatch .wild v = .some [] := rfl
theorem pmatch_var (x v) : pmatch (.var x) v = .some [(x, v)] := rfl
theorem pmatch_none_none : pmatch .none .none = .some [] := rfl
theorem pmatch_none_some (v) : pmatch .none (.some v) = .none := rfl
theorem pmatch_some_some (x v) : pmatch (.some x) (.some v) = .some [(x, v)] := rfl
theorem pmatch_some_none (x) : pmatch (.some x) .none = .none := rfl
theorem pmatch_tuple (xs vs) : pmatch (.tuple xs) (.tuple vs) = if xs.length = vs.length then .some (xs.zip vs) else .none := rfl
theorem pmatch_variants (ps t v) : pmatch (.variants ps) (.data t v []) = if (t, v) ∈ ps then .some [] else .none := rfl
theorem pmatch_variants_data (ps t v a as) : pmatch (.variants ps) (.data t v (a :: as)) = .none := rfl
theorem pmatch_data (t v xs t' v' vs) : pmatch (.data t v xs) (.data t' v' vs) = if t = t' ∧ v = v' ∧ xs.length = vs.length then .some (xs.zip vs) else .none := rfl
theorem pmatch_dataAny (t v t' v' vs) : pmatch (.dataAny t v) (.data t' v' vs) = if t = t' ∧ v = v' then .some [] else .none := rfl
theorem fieldVal_struct (n fs f) : fieldVal (.struct n fs) f = Env.get f fs := rfl
theorem fieldVal_tuple (vs f) : fieldVal (.tuple vs) f = vs[f]? := rfl
theorem Val.list_tuple (vs) : (Val.tuple vs).list = vs := rfl
theorem callMeth_struct (W C e t fs m es vs env) : callMeth W C e (.struct t fs) m es vs env =
    (match W.fn? (.some t) m with | .some f => .ofCall f.muts (.cons e es) env (C.fn f (.struct t fs :: vs)) | .none => .stuck) := rfl
theorem callMeth_str (W C e s m es vs env) : callMeth W C e (.str s) m es vs env = .ofLib e env (strLib m s vs) := rfl
theorem callMeth_char (W C e c m es vs env) : callMeth W C e (.char c) m es vs env = .ofLib e env (charLib m c vs) := rfl
theorem callMeth_vec (W C e l m es vs env) : callMeth W C e (.vec l) m es vs env = .ofLib e env (vecLib m l vs) := rfl
theorem callMeth_set (W C e l m es vs env) : callMeth W C e (.set l) m es vs env = .ofLib e env (setLib W.ord m l vs) := rfl
theorem callMeth_map (W C e l m es vs env) : callMeth W C e (.map l) m es vs env = .ofLib e env (mapLib W.ord m l vs) := rfl
theorem callMeth_none (W C e m es vs env) : callMeth W C e .none m es vs env = .ofLib e env (optLib m .none vs) := rfl
theorem callMeth_some (W C e v m es vs env) : callMeth W C e (.some v) m es vs env = .ofLib e env (optLib m (.some v) vs) := rfl
theorem callMeth_num (W C e u n m es vs env) : callMeth W C e (.num u n) m es vs env = .ofLib e env (if m = n!"clone" ∧ vs = [] then .ok (.num u n) .none else .stuck) := rfl
/-- A number of a key. -/
theorem fieldVal_encKey (i) : fieldVal (encKey i) 0 = .some (.num true i) := rfl

open Lean Meta Simp in
/-- Simplifies the first argument of a combinator; continues with one of the equations if it becomes a constructor, otherwise leaves the rest alone. -/
def stepFirst (n : Nat) (eqs : List Name) : Simproc := fun e => do
  let args := e.getAppArgs
  unless args.size = n do return .continue
  let r ← simp args[0]!
  let r := { r with expr := (← instantiateMVars r.expr).consumeMData }
  let e' := mkAppN e.getAppFn (args.set! 0 r.expr)
  let proof? ← match r.proof? with
    | none => pure none
    | some h =>
      let f ← withLocalDeclD `x (← inferType args[0]!) fun x => mkLambdaFVars #[x] (mkAppN e.getAppFn (args.set! 0 x))
      pure (some (← mkCongrArg f h))
  let r' : Simp.Result := { expr := e', proof? }
  if (← isConstructorApp? r.expr).isSome then
    for c in eqs do
      let thm := mkConst c
      let (xs, _, ty) ← forallMetaTelescope (← inferType thm)
      let some (_, lhs, rhs) := ty.eq? | continue
      if ← isDefEq lhs e' then
        let rhs := (← instantiateMVars rhs).headBeta
        return .visit (← r'.mkEqTrans { expr := rhs, proof? := some (← instantiateMVars (mkAppN thm xs)) })
  return .done r'

simproc_decl stepBind (Res.bind _ _) := stepFirst 2 [``Res.bind_ok, ``Res.bind_panic, ``Res.bind_ret, ``Res.bind_brk, ``Res.bind_cont]
simproc_decl stepIfMatch (Res.ifMatch _ _ _) := stepFirst 3 [``Res.ifMatch_some, ``Res.ifMatch_none]
simproc_decl stepIfTrue (Res.ifTrue _ _ _) := stepFirst 3 [``Res.ifTrue_true, ``Res.ifTrue_false]
simproc_decl stepWithItems (Res.withItems _ _) := stepFirst 2 [``Res.withItems_some]

open Lean Meta Simp in
/-- Loops are left alone. -/
def stopHere : Simproc := fun e => return .done { expr := e }
simproc_decl stopFor (forN _ _ _) := stopHere
simproc_decl stopLoop (loopN _ _ _) := stopHere
simproc_decl stopMap (mapN _ _ _) := stopHere

section
variable (W : World) (C : Calls) (k : Nat) (a b : Ex) (env : Env)
theorem ev_eq : ev W C k (.bin .eq a b) env = (ev W C k a env).bind fun v env => (ev W C k b env).bind fun w env => .ofLib (.path []) env (binop .eq v w) := rfl
theorem ev_ne : ev W C k (.bin .ne a b) env = (ev W C k a env).bind fun v env => (ev W C k b env).bind fun w env => .ofLib (.path []) env (binop .ne v w) := rfl
theorem ev_lt : ev W C k (.bin .lt a b) env = (ev W C k a env).bind fun v env => (ev W C k b env).bind fun w env => .ofLib (.path []) env (binop .lt v w) := rfl
theorem ev_le : ev W C k (.bin .le a b) env = (ev W C k a env).bind fun v env => (ev W C k b env).bind fun w env => .ofLib (.path []) env (binop .le v w) := rfl
theorem ev_gt : ev W C k (.bin .gt a b) env = (ev W C k a env).bind fun v env => (ev W C k b env).bind fun w env => .ofLib (.path []) env (binop .gt v w) := rfl
theorem ev_ge : ev W C k (.bin .ge a b) env = (ev W C k a env).bind fun v env => (ev W C k b env).bind fun w env => .ofLib (.path []) env (binop .ge v w) := rfl
theorem ev_add : ev W C k (.bin .add a b) env = (ev W C k a env).bind fun v env => (ev W C k b env).bind fun w env => .ofLib (.path []) env (binop .add v w) := rfl
theorem ev_sub : ev W C k (.bin .sub a b) env = (ev W C k a env).bind fun v env => (ev W C k b env).bind fun w env => .ofLib (.path []) env (binop .sub v w) := rfl
end

/-- What a call does for all sufficiently large bounds. -/
def Runs (W : World) (f : Fn) (vs : List Val) (r : CRes) : Prop := ∃ N, ∀ n, N ≤ n → callN W n f vs = r

theorem Runs.of {W : World} {f : Fn} {vs : List Val} {b : Ex} {r : CRes} (hb : f.body = some b) (hl : f.names.length = vs.length)
    (h : ∃ N, ∀ n, N ≤ n → (ev W ⟨callN W n, cloN W n⟩ n b (f.names.zip vs)).result = r) : Runs W f vs r := by
  obtain ⟨N, h⟩ := h
  refine ⟨N + 1, fun n hn => ?_⟩
  obtain ⟨m, rfl⟩ : ∃ m, n = m + 1 := ⟨n - 1, by omega⟩
  rw [callN, hb]
  simp only [hl, if_true]
  exact h m (by omega)

/-- One call of a function whose body is known. -/
theorem callN_succ {W : World} {f : Fn} {vs : List Val} {b : Ex} (hb : f.body = some b) (hl : f.names.length = vs.length) {n : Nat} (hn : 1 ≤ n) :
    callN W n f vs = (ev W ⟨callN W (n - 1), cloN W (n - 1)⟩ (n - 1) b (f.names.zip vs)).result := by
  obtain ⟨m, rfl⟩ : ∃ m, n = m + 1 := ⟨n - 1, by omega⟩
  rw [callN, hb]
  simp only [hl, if_true, Nat.add_sub_cancel]

/-- Symbolic execution. -/
macro "rs" "[" ts:Lean.Parser.Tactic.simpLemma,* "]" : tactic => `(tactic|
  simp (maxSteps := 1000000) (implicitDefEqProofs := false) (disch := omega) only [ev, evs, evArms, evFlds, evBlk, ev_eq, ev_ne, ev_lt, ev_le, ev_gt, ev_ge, ev_add, ev_sub,
    ↓stepBind, ↓stepIfMatch, ↓stepIfTrue, ↓stepWithItems, ↓stopFor, ↓stopLoop, ↓stopMap,
    Res.bind_ok, Res.bind_panic, Res.bind_ret, Res.bind_brk, Res.bind_cont, Res.drop_ok, Res.drop_panic, Res.drop_ret, Res.drop_brk, Res.drop_cont,
    Res.result_ok, Res.result_ret, Res.result_panic,
    Res.ifMatch_some, Res.ifMatch_none, Res.ifTrue_true, Res.ifTrue_false, Res.withItems_some, Res.ofOpt_some, Res.ofEnv_some, Res.ofLib_ok,
    Res.ofLib_mut, Res.ofLib_panic, Res.ofCall_ok, Res.ofCall_panic, rsfn, pathVal, Env.get, Env.set, Option.map_some, Option.map_none, Option.bind_some, peek, assign, writeBack, pmatch_wild, pmatch_var, pmatch_none_none, pmatch_none_some, pmatch_some_some, pmatch_some_none, pmatch_tuple,
    pmatch_variants, pmatch_variants_data, pmatch_data, pmatch_dataAny, fieldVal_struct, fieldVal_tuple, fieldVal_encKey, Val.list_tuple, callPath,
    callMeth_struct, callMeth_str, callMeth_char, callMeth_vec, callMeth_set, callMeth_map, callMeth_none, callMeth_some, callMeth_num, libFn,
    Fn.names, List.zip_cons_cons, List.zip_nil_right, List.zip_nil_left, List.map_cons, List.map_nil, List.length_cons, List.length_nil,
    List.nil_append, List.cons_append, List.drop_succ_cons, List.drop_zero, List.append_nil, World.gen_ord,
    Nat.reduceEqDiff, Nat.reduceAdd, Nat.reduceSub, Nat.reduceLT, Nat.reduceMul, ↓reduceIte, ↓reduceDIte, reduceCtorEq, List.cons.injEq, Prod.mk.injEq, List.mem_cons, List.not_mem_nil,
    and_true, true_and, and_false, false_and, or_false, false_or, or_true, true_or, not_true, not_false_iff, and_self, or_self, $ts,*])

/-- A step of symbolic execution that does not look into what follows. -/
macro "rs" : tactic => `(tactic| rs [Nat.add_zero])

theorem render_nil (env) : render [] [] env = .some [] := by rw [render]
theorem render_lit (s ps vs env) {r} (h : render ps vs env = .some r) : render (.lit s :: ps) vs env = .some (s ++ r) := by
  rw [render, h]
theorem render_disp (v ps vs env) {s r} (h : disp v = .some s) (h' : render ps vs env = .some r) : render (.disp :: ps) (v :: vs) env = .some (s ++ r) := by
  rw [render, h, h']
theorem render_dbg (v ps vs env) {s r} (h : dbg v = .some s) (h' : render ps vs env = .some r) : render (.dbg :: ps) (v :: vs) env = .some (s ++ r) := by
  rw [render, h, h']

/-- `decimal` writes the digits. -/
theorem decimal_eq (n : Nat) : digits n = decimal n := by
  have : ∀ f n acc, n < f → decimal.go f n acc = digits n ++ acc := by
    intro f
    induction f with
    | zero => intro n acc h; omega
    | succ f ih =>
      intro n acc h
      rw [decimal.go, digits]
      split
      · rfl
      · rw [ih _ _ (by omega), List.append_assoc]; rfl
  rw [decimal, this _ _ _ (by omega), List.append_nil]

/-! ## keys.rs -/

variable (ord : List Val → List Val)

theorem call_usize_from (k : Nat) {n : Nat} (hn : 1 ≤ n) :
    callN (World.gen ord) n Ast.usize.from [encKey k] = .ok (.num false k) [encKey k] := by
  rw [callN_succ rfl rfl hn]
  rs [encKey, cast, Ast.usize.from]

end PP.Rs
