import Verif.Spec.Mini.Interp

/-! # More fuel does not change the result of a run -/
namespace PP.Mini
set_option linter.unusedSectionVars false

/-- `x` ran out of fuel, or they are equal. -/
def Res.le {α : Type} (x y : Res α) : Prop := x = .oof ∨ x = y

theorem Res.le.rfl {α : Type} {x : Res α} : x.le x := .inr (Eq.refl x)
theorem Res.le.trans {α : Type} {x y z : Res α} (h : x.le y) (h' : y.le z) : x.le z := by
  rcases h with h | h
  · exact .inl h
  · exact h ▸ h'
theorem Res.le.bind {α β : Type} {x y : Res α} {f g : α → Heap → Res β} (h : x.le y) (hf : ∀ a h, (f a h).le (g a h)) :
    (x.bind f).le (y.bind g) := by
  rcases h with h | h
  · subst h; exact .inl (Eq.refl _)
  · subst h
    cases x with
    | ok a h => exact hf a h
    | _ => exact .rfl
theorem Res.le.result {x y : Res Val} (h : x.le y) : x.result.le y.result := by
  rcases h with h | h
  · subst h; exact .inl (Eq.refl _)
  · subst h; exact .rfl

theorem loopN_le {f g : Heap → Res Val} (hf : ∀ h, (f h).le (g h)) : ∀ {n n' : Nat}, n ≤ n' → ∀ h, (loopN f n h).le (loopN g n' h)
  | 0, _, _, _ => .inl rfl
  | n + 1, n' + 1, hn, h => by
    unfold loopN
    rcases hf h with e | e
    · rw [e]; exact .inl rfl
    · rw [e]
      cases g h with
      | ok a h => exact loopN_le hf (Nat.le_of_succ_le_succ hn) h
      | _ => exact .rfl

theorem forN_le {f g : Val → Heap → Res Val} (hf : ∀ v h, (f v h).le (g v h)) : ∀ (l : List Val) (h : Heap), (forN f l h).le (forN g l h)
  | [], _ => .rfl
  | v :: vs, h => by
    unfold forN
    rcases hf v h with e | e
    · rw [e]; exact .inl rfl
    · rw [e]
      cases g v h with
      | ok a h => exact forN_le hf vs h
      | _ => exact .rfl

section
variable {P : Prog} {call call' : Call} {n n' : Nat} (hc : ∀ v args h, (call v args h).le (call' v args h)) (hn : n ≤ n')
include hc

theorem callGlobal_le (f : List Name) (args : List Val) (h : Heap) : (callGlobal P call f args h).le (callGlobal P call' f args h) := by
  unfold callGlobal
  split
  · split
    · exact .rfl
    · split
      · exact .rfl
      · exact hc _ _ _
  · split
    · exact .rfl
    · exact hc _ _ _
  · exact .rfl

theorem callMethod_le (m : Name) (r : Val) (args : List Val) (h : Heap) : (callMethod P call m r args h).le (callMethod P call' m r args h) := by
  unfold callMethod
  simp only []
  split
  · split
    · split
      · exact hc _ _ _
      · exact hc _ _ _
      · exact hc _ _ _
      · exact .rfl
    · exact .rfl
  · exact .rfl
  · exact .rfl

include hn
mutual
theorem ev_le (pl : Bool) : ∀ (e : Ex) (env : Env) (h : Heap), (ev P call n pl e env h).le (ev P call' n' pl e env h)
  | .bool _, _, _ | .int _, _, _ | .byte _, _, _ | .bytes _, _, _ | .str _, _, _ | .msg, _, _ | .path _, _, _ | .brk, _, _ | .clo .., _, _ => by
    unfold ev; exact .rfl
  | .tuple es, env, h | .array es, env, h => by
    unfold ev; exact (evs_le es env h).bind fun _ _ => .rfl
  | .call f es, env, h => by
    unfold ev
    split
    · split
      · exact (evs_le es env h).bind fun _ _ => hc _ _ _
      · exact (evs_le es env h).bind fun _ _ => Res.le.rfl.bind fun _ _ => hc _ _ _
      · exact (evs_le es env h).bind fun _ _ => callGlobal_le hc _ _ _
    · exact (evs_le es env h).bind fun _ _ => callGlobal_le hc _ _ _
    · exact .rfl
  | .meth e m es, env, h => by
    unfold ev; exact (ev_le true e env h).bind fun _ h => (evs_le es env h).bind fun _ _ => callMethod_le hc _ _ _ _
  | .field e f, env, h => by
    unfold ev; exact (ev_le true e env h).bind fun _ _ => .rfl
  | .index e i, env, h => by
    unfold ev; exact (ev_le true e env h).bind fun _ h => (ev_le false i env h).bind fun _ _ => .rfl
  | .slice e i j, env, h => by
    unfold ev
    exact (ev_le true e env h).bind fun _ h => (ev_le false i env h).bind fun _ h => (ev_le false j env h).bind fun _ _ => .rfl
  | .ref e, env, h | .deref e, env, h => by
    unfold ev; exact (ev_le true e env h).bind fun _ _ => .rfl
  | .refMut e, env, h => by
    unfold ev; exact ev_le true e env h
  | .not e, env, h | .neg e, env, h | .cast e _, env, h | .ret e, env, h => by
    unfold ev; exact (ev_le false e env h).bind fun _ _ => .rfl
  | .bin o a b, env, h => by
    unfold ev
    refine (ev_le false a env h).bind fun _ h => ?_
    split
    · split
      · exact ev_le false b env h
      · exact .rfl
    · split
      · exact .rfl
      · exact ev_le false b env h
    · exact (ev_le false b env h).bind fun _ _ => .rfl
  | .ite c a b, env, h => by
    unfold ev
    refine (ev_le false c env h).bind fun _ h => ?_
    split
    · exact ev_le false a env h
    · exact ev_le false b env h
    · exact .rfl
  | .mtch e as, env, h => by
    unfold ev; exact (ev_le false e env h).bind fun v h => evArms_le v as env h
  | .block b, env, h => by
    unfold ev; exact evBlk_le b env h
  | .loop b, env, h => by
    unfold ev; exact loopN_le (fun h => ev_le false b env h) hn h
  | .forIn p e b, env, h => by
    unfold ev
    refine (ev_le false e env h).bind fun v h => ?_
    split
    · refine forN_le (fun v h => ?_) _ _
      split
      · exact ev_le false b _ h
      · exact .rfl
    · exact .rfl
  | .assign a b, env, h => by
    unfold ev; exact (ev_le false b env h).bind fun v h => (ev_le true a env h).bind fun _ _ => .rfl
  | .addAssign a b, env, h => by
    unfold ev; exact (ev_le false b env h).bind fun v h => (ev_le true a env h).bind fun _ _ => .rfl
  | .struct t fs, env, h => by
    unfold ev; exact (evFlds_le fs env h).bind fun _ _ => .rfl
  | .mac m es, env, h => by
    unfold ev
    split
    · match es with
      | .nil => exact .rfl
      | .cons e es => exact (ev_le false e env h).bind fun _ _ => .rfl
    · split
      · exact (evs_le es env h).bind fun _ _ => .rfl
      · split
        · exact (evs_le es env h).bind fun _ _ => .rfl
        · exact .rfl
theorem evs_le : ∀ (es : Exs) (env : Env) (h : Heap), (evs P call n es env h).le (evs P call' n' es env h)
  | .nil, _, _ => by unfold evs; exact .rfl
  | .cons e es, env, h => by
    unfold evs; exact (ev_le false e env h).bind fun _ h => (evs_le es env h).bind fun _ _ => .rfl
theorem evFlds_le : ∀ (fs : Flds) (env : Env) (h : Heap), (evFlds P call n fs env h).le (evFlds P call' n' fs env h)
  | .nil, _, _ => by unfold evFlds; exact .rfl
  | .cons f e fs, env, h => by
    unfold evFlds; exact (ev_le false e env h).bind fun _ h => (evFlds_le fs env h).bind fun _ _ => .rfl
theorem evArms_le (v : Val) : ∀ (as : Arms) (env : Env) (h : Heap), (evArms P call n v as env h).le (evArms P call' n' v as env h)
  | .nil, _, _ => by unfold evArms; exact .rfl
  | .cons p e as, env, h => by
    unfold evArms
    split
    · exact ev_le false e _ h
    · exact evArms_le v as env h
theorem evBlk_le : ∀ (b : Blk) (env : Env) (h : Heap), (evBlk P call n b env h).le (evBlk P call' n' b env h)
  | .nil, _, _ => by unfold evBlk; exact .rfl
  | .tail e, env, h => by unfold evBlk; exact ev_le false e env h
  | .letS p mt e b, env, h => by
    unfold evBlk
    refine (ev_le false e env h).bind fun v h => ?_
    split
    · exact evBlk_le b _ _
    · exact .rfl
    · split
      · exact evBlk_le b _ _
      · exact .rfl
  | .letU x b, env, h => by unfold evBlk; exact evBlk_le b _ _
  | .exprS e b, env, h => by
    unfold evBlk; exact (ev_le false e env h).bind fun _ h => evBlk_le b env h
end
end

/-- More fuel does not change the result of a run. -/
theorem run_le {P : Prog} : ∀ {n n' : Nat}, n ≤ n' → ∀ v args h, (run P n v args h).le (run P n' v args h)
  | 0, _, _, _, _, _ => .inl (by unfold run; rfl)
  | n + 1, n' + 1, hn, v, args, h => by
    have hn' := Nat.le_of_succ_le_succ hn
    have ih := fun v args h => run_le (P := P) hn' v args h
    cases v with
    | clo ps b env =>
      unfold run
      split
      · exact (ev_le ih hn' false b _ h).result
      · exact .rfl
    | fn ty f =>
      unfold run
      split
      · exact .rfl
      · split
        · exact (ev_le ih hn' false _ _ h).result
        · exact .rfl
    | _ => unfold run; exact .rfl

end PP.Mini
