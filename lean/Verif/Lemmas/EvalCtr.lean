import Verif.Lemmas.VarNameCtr

/-! # The contract of `eval`, for all grammars -/
set_option linter.unusedSectionVars false
namespace PP
variable {R U : Type} [DecidableEq R] {lr : Prop} {body : R → Expr R} {src : Source}

local notation "RunE" => fun e => Run lr body src e

theorem Inv.setUser {D : Nat → Prop} {st : St R U} (hi : Inv lr body src D st) (u : U) :
    Inv lr body src D { st with user := u } :=
  ⟨hi.pos, hi.root, hi.bound, hi.kids, hi.idx, hi.done, hi.memo, hi.active⟩

theorem Post.setUser {D : Nat → Prop} {st : St R U} {u : U} {parent} {S : Bool → Nat → List (Tree R) → Prop}
    {x : Out (Bool × Nat × St R U)} (h : Post lr body src D { st with user := u } parent S x) :
    Post lr body src D st parent S x := by
  cases x with
  | oof => trivial
  | panic p => exact h
  | ok a =>
    obtain ⟨b, q, st'⟩ := a
    obtain ⟨D', ks, ts, h1, h2, h3, h4, h5, h6⟩ := h
    exact ⟨D', ks, ts, h1, ⟨h2.mono, h2.fresh, h2.len, h2.done, h2.frame, h2.par, h2.memo⟩, ⟨h3.active, h3.heads⟩,
      h4, h5, h6⟩

theorem post_hook {f : PFn R U} {e : Expr R} {name : String} (hf : Ctr lr body src f (RunE e)) {parent pos : Nat} :
    ∀ (prog : HookProg U) (seen : List Nat), HookOK src.len pos seen prog → ∀ (D : Nat → Prop) (st : St R U),
      Inv lr body src D st → ¬ D parent → parent < st.pub.nodes.length →
      Post lr body src D st parent
        (fun b q ts => Run lr body src (.hooked name e) pos b q ts ∨
          (b = true ∧ q ∈ seen ∧ ∃ b' q', Run lr body src (.hooked name e) pos b' q' ts))
        (runHook f parent prog st) := by
  intro prog
  induction prog with
  | ret u b q =>
    intro seen hk D st hi hp hl
    refine ⟨D, [], [], hi.setUser u, ⟨fun _ h => h, fun _ h => Or.inl h, Nat.le_refl _, fun k nd _ e => ⟨nd, e, Sim.refl _⟩,
      fun _ _ _ _ => rfl, fun nd e => by simpa using e, fun r p v e => ⟨v, e, fun _ => rfl⟩⟩,
      ⟨rfl, fun _ _ h e => ⟨h, e, fun _ => ⟨rfl, List.Sublist.refl _⟩⟩⟩, by simp, .nil, ?_⟩
    cases hk with
    | fail => exact Or.inl .hook_ret
    | succ h => exact Or.inr ⟨rfl, h, false, pos, .hook_ret⟩
  | panic => intro seen hk D st hi hp hl; exact Or.inr rfl
  | call u p k ih =>
    intro seen hk D st hi hp hl
    cases hk with
    | call h1 h2 h3 =>
      simp only [runHook]
      refine Post.bind (x := f parent p { st with user := u }) hp hl
        (Post.setUser (hf D _ parent p (hi.setUser u) hp hl)) ?_
      intro b q st' D' ts hr hi' hp' hl'
      refine Post.mono (ih st'.user b q _ (h3 st'.user b q hr.pos.1) D' st' hi' hp' hl') ?_
      rintro b' q' us (h | ⟨rfl, hq, b'', q'', h⟩)
      · exact Or.inl (.hook_call h1 hr h)
      · split at hq
        · next hb =>
          obtain ⟨rfl, rfl⟩ := hb
          rcases List.mem_cons.mp hq with rfl | hq
          · exact Or.inl (.hook_ok hr h)
          · exact Or.inr ⟨rfl, hq, _, _, .hook_call h1 hr h⟩
        · exact Or.inr ⟨rfl, hq, _, _, .hook_call h1 hr h⟩

/-- `eval` meets its contract: it never panics except for node-key overflow or inside a hook, keeps the invariant, and
returns only what the run relation allows. -/
theorem eval_ctr (P : Parser R U) (src : Source) (hh : P.HooksOK src) (hbody : ∀ r, lr ∨ (P.body r).LRFree) :
    ∀ (n : Nat) (e : Expr R), lr ∨ e.LRFree → Ctr lr P.body src (eval P src n e) (Run lr P.body src e) := by
  intro n
  induction n with
  | zero => intro e _ D st parent pos _ _ _; trivial
  | succ n ih =>
    intro e he
    cases e with
    | andPredicate e => exact ctr_and (ih e he)
    | notPredicate e => exact ctr_not (ih e he)
    | oneOrMore e => exact ctr_plus (ih e he) n
    | zeroOrMore e => exact ctr_star (ih e he) n
    | optional e => exact ctr_opt (ih e he)
    | subexpression e => exact ctr_sub (ih e he)
    | orderedChoice a b => exact ctr_choice (ih a (he.imp_right (·.1))) (ih b (he.imp_right (·.2)))
    | sequence a b => exact ctr_seq (ih a (he.imp_right (·.1))) (ih b (he.imp_right (·.2)))
    | terminal c => exact ctr_terminal c
    | stringTerminal d => exact ctr_string d
    | matchRange lo hi => exact ctr_range lo hi
    | varName r => exact ctr_varName (ih _ (hbody r))
    | varNameLR inv r =>
      exact ctr_varNameLR (by rcases he with h | h; exact h; exact absurd h (by simp [Expr.LRFree])) n (ih _ (hbody r))
    | inlined r =>
      intro D st parent pos hi hp hl
      exact Post.mono (ih _ (hbody r) D st parent pos hi hp hl) fun b q ts h => .inl h
    | hooked name e =>
      intro D st parent pos hi hp hl
      refine Post.mono (post_hook (name := name) (ih e he) _ [] (hh name pos st.user) D st hi hp hl) ?_
      rintro b q ts (h | ⟨_, h, _⟩)
      · exact h
      · cases h

/-- The initial state satisfies the invariant with no finished node. -/
theorem inv_new (g : R) (u : U) : Inv lr body src (fun _ => False) (St.new g u) :=
  { pos := by simp [St.new, Publisher.new]
    root := id
    bound := fun k h => h.elim
    kids := fun k nd e c hc => by
      cases k with
      | zero => simp [St.new, Publisher.new] at e; subst e; simp at hc
      | succ k => simp [St.new, Publisher.new] at e
    idx := fun k nd e => by
      cases k with
      | zero => simp [St.new, Publisher.new] at e; subst e; rfl
      | succ k => simp [St.new, Publisher.new] at e
    done := fun k h => h.elim
    memo := fun r p b q k e => by simp [St.new, Cache.new] at e
    active := fun r p e => by simp [St.new, Cache.new] at e }

end PP
