import Verif.Lemmas.Mini.World

/-! # parser_core.rs does what Model/Core says -/
namespace PP.Mini
attribute [local congr] Res.bind_congr loopN_congr forN_congr

/-- Enough rounds of a loop. -/
def Rounds (d : Dir) (n m : Nat) : Prop :=
  match d with
  | .sound => n ≤ m
  | .complete => m ≤ n

section
variable {R U : Type} {W : World R U} {d : Dir} {n : Nat} {f f' : Val} {g g' : PFn R U} {parent pos : Nat} {st : St R U} {h : Heap}

theorem and_kernel (hf : W.Fn d n f g) (hg : W.Good st h) :
    Sim d (W.K h) (run W.Q (n + 1) (.fn none n!"_and_predicate_kernel") [encKey parent, encSource W.src, .int pos, f] h)
      (andPredicateKernel g parent pos st) := by
  rw [run]
  simp only [W.core.f__and_predicate_kernel, Ast._and_predicate_kernel]
  mini
  refine (hf parent pos st h hg).result ?_
  rintro _ h' ⟨b, q, st'⟩ ⟨rfl, hg', hfr⟩
  mini
  cases b <;> mini <;> exact .ok ⟨rfl, hg', hfr⟩

theorem not_kernel (hf : W.Fn d n f g) (hg : W.Good st h) :
    Sim d (W.K h) (run W.Q (n + 1) (.fn none n!"_not_predicate_kernel") [encKey parent, encSource W.src, .int pos, f] h)
      (notPredicateKernel g parent pos st) := by
  rw [run]
  simp only [W.core.f__not_predicate_kernel, Ast._not_predicate_kernel]
  mini
  refine (hf parent pos st h hg).result ?_
  rintro _ h' ⟨b, q, st'⟩ ⟨rfl, hg', hfr⟩
  mini
  cases b <;> mini <;> exact .ok ⟨rfl, hg', hfr⟩

theorem optional_kernel (hf : W.Fn d n f g) (hg : W.Good st h) :
    Sim d (W.K h) (run W.Q (n + 1) (.fn none n!"_optional_kernel") [encKey parent, encSource W.src, .int pos, f] h)
      (optionalKernel g parent pos st) := by
  rw [run]
  simp only [W.core.f__optional_kernel, Ast._optional_kernel]
  mini
  refine (hf parent pos st h hg).result ?_
  rintro _ h' ⟨b, q, st'⟩ ⟨rfl, hg', hfr⟩
  mini
  cases b <;> mini <;> exact .ok ⟨rfl, hg', hfr⟩

theorem sub_kernel (hf : W.Fn d n f g) (hg : W.Good st h) :
    Sim d (W.K h) (run W.Q (n + 1) (.fn none n!"_subexpression_kernel") [encKey parent, encSource W.src, .int pos, f] h)
      (subexpressionKernel g parent pos st) := by
  rw [run]
  simp only [W.core.f__subexpression_kernel, Ast._subexpression_kernel]
  mini
  refine (hf parent pos st h hg).result ?_
  rintro _ h' ⟨b, q, st'⟩ ⟨rfl, hg', hfr⟩
  mini
  cases b <;> mini <;> exact .ok ⟨rfl, hg', hfr⟩

theorem choice_kernel (hf : W.Fn d n f g) (hf' : W.Fn d n f' g') (hg : W.Good st h) :
    Sim d (W.K h) (run W.Q (n + 1) (.fn none n!"_ordered_choice_kernel") [encKey parent, encSource W.src, .int pos, f, f'] h)
      (orderedChoiceKernel g g' parent pos st) := by
  rw [run]
  simp only [W.core.f__ordered_choice_kernel, Ast._ordered_choice_kernel]
  mini
  refine (hf parent pos st h hg).result ?_
  rintro _ h' ⟨b, q, st'⟩ ⟨rfl, hg', hfr⟩
  mini
  cases b <;> mini
  · refine (hf' parent pos st' h' hg').result ?_
    rintro _ h'' ⟨b, q, st''⟩ ⟨rfl, hg'', hfr'⟩
    mini
    cases b <;> mini <;> exact .ok ⟨rfl, hg'', hfr.trans hfr'⟩
  · exact .ok ⟨rfl, hg', hfr⟩

theorem seq_kernel (hf : W.Fn d n f g) (hf' : W.Fn d n f' g') (hg : W.Good st h) :
    Sim d (W.K h) (run W.Q (n + 1) (.fn none n!"_sequence_kernel") [encKey parent, encSource W.src, .int pos, f, f'] h)
      (sequenceKernel g g' parent pos st) := by
  rw [run]
  simp only [W.core.f__sequence_kernel, Ast._sequence_kernel]
  mini
  refine (hf parent pos st h hg).result ?_
  rintro _ h' ⟨b, q, st'⟩ ⟨rfl, hg', hfr⟩
  mini
  cases b <;> mini
  · exact .ok ⟨rfl, hg', hfr⟩
  · refine (hf' parent q st' h' hg').result ?_
    rintro _ h'' ⟨b, q, st''⟩ ⟨rfl, hg'', hfr'⟩
    mini
    cases b <;> mini <;> exact .ok ⟨rfl, hg'', hfr.trans hfr'⟩

/-- The loop of `_zero_or_more_kernel` and `_one_or_more_kernel`, in terms of what a round does. -/
theorem repeat_loop {step : Heap → Res Val} {h₀ : Heap} (hf : W.Fn d n f g) (L : Nat) (hL : h₀.length ≤ L) (ha : L ≠ W.a) (hu : L ≠ W.u)
    (hstep : ∀ (temp : Nat) (h : Heap), h[L]? = some (.int temp) → ∃ k : Val → Heap → Res Val,
      step h = (run W.Q n f [encKey parent, encSource W.src, .int temp] h).bind k ∧ (∀ q h', k (.tuple [.bool false, .int q]) h' = .brk h') ∧
      ∀ q h' v, h'[L]? = some v → ∃ w, k (.tuple [.bool true, .int q]) h' = .ok w (h'.set L (.int q))) :
    ∀ {k m : Nat}, Rounds d k m → ∀ (temp : Nat) (st : St R U) (h : Heap), W.Good st h → W.Frame h₀ h → L < h.length → h[L]? = some (.int temp) →
    Sim d (fun v h' x => v = .unit ∧ h'[L]? = some (.int x.2.1) ∧ x.1 = true ∧ W.Good x.2.2 h' ∧ W.Frame h₀ h') (loopN step k h)
      (repeatLoop g parent m temp st)
  | 0, m, hr, temp, st, h, hg, hfr, hlt, e => by
    cases d with
    | sound => exact .oofL rfl
    | complete => obtain rfl : m = 0 := Nat.le_zero.mp hr; exact .oofR rfl
  | k + 1, 0, hr, temp, st, h, hg, hfr, hlt, e => by
    cases d with
    | sound => exact absurd hr (by simp [Rounds])
    | complete => exact .oofR rfl
  | k + 1, m + 1, hr, temp, st, h, hg, hfr, hlt, e => by
    have hr' : Rounds d k m := by cases d <;> exact Nat.le_of_succ_le_succ hr
    unfold loopN repeatLoop
    obtain ⟨c, hc, hc1, hc2⟩ := hstep temp h e
    rw [hc]
    have hs := hf parent temp st h hg
    generalize run W.Q n f [encKey parent, encSource W.src, .int temp] h = r at hs ⊢
    generalize g parent temp st = o at hs ⊢
    cases hs with
    | oofL e => exact .oofL e
    | oofR e => exact .oofR e
    | panic => exact .panic
    | @ok v h' b k' =>
      obtain ⟨b, q, st'⟩ := b
      obtain ⟨rfl, hg', hfr'⟩ := k'
      have e' : h'[L]? = some (.int temp) := (hfr'.eq L hlt ha hu).trans e
      have hlt' := (List.getElem?_eq_some_iff.mp e').1
      cases b
      · rw [Res.bind_ok, hc1]
        exact .ok ⟨rfl, e', rfl, hg', hfr.trans hfr'⟩
      · obtain ⟨w, hw⟩ := hc2 q h' _ e'
        rw [Res.bind_ok, hw]
        refine repeat_loop hf L hL ha hu hstep hr' q st' _ (hg'.set ha hu _) ((hfr.trans hfr').set hL _) (by simpa using hlt') ?_
        simp [hlt']

theorem zero_kernel {m : Nat} (hf : W.Fn d n f g) (hr : Rounds d n m) (hg : W.Good st h) :
    Sim d (W.K h) (run W.Q (n + 1) (.fn none n!"_zero_or_more_kernel") [encKey parent, encSource W.src, .int pos, f] h)
      (zeroOrMoreKernel m g parent pos st) := by
  rw [run]
  simp only [W.core.f__zero_or_more_kernel, Ast._zero_or_more_kernel]
  have ha := hg.lt_a
  have hu := hg.lt_u
  mini
  refine Sim.result' (repeat_loop (h₀ := h) (parent := parent) hf h.length (Nat.le_refl _) (by omega) (by omega) ?_ hr
      pos st (h ++ [.int pos]) (hg.push _) ((World.Frame.rfl' W).push _) (by simp) (by simp)) ?_
  · intro temp h' e
    mini [load_loc e]
    refine ⟨_, rfl, fun q h' => ?_, fun q h' v e' => ?_⟩
    · mini
    · exact ⟨.unit, by mini [store_loc e']⟩
  · rintro _ h' ⟨b, q, st'⟩ ⟨rfl, e, rfl, hg', hfr⟩
    mini [load_loc e]
    exact .ok ⟨rfl, hg', hfr⟩

theorem one_kernel {m : Nat} (hf : W.Fn d n f g) (hr : Rounds d n m) (hg : W.Good st h) :
    Sim d (W.K h) (run W.Q (n + 1) (.fn none n!"_one_or_more_kernel") [encKey parent, encSource W.src, .int pos, f] h)
      (oneOrMoreKernel m g parent pos st) := by
  rw [run]
  simp only [W.core.f__one_or_more_kernel, Ast._one_or_more_kernel]
  have ha := hg.lt_a
  have hu := hg.lt_u
  have e : (h ++ [.int pos])[h.length]? = some (.int pos) := by simp
  mini [load_loc e]
  refine (hf parent pos st _ (hg.push (.int pos))).result ?_
  rintro _ h₁ ⟨b, q, st₁⟩ ⟨rfl, hg₁, hfr₁⟩
  have hlt : h.length < (h ++ [Val.int pos]).length := by simp
  have e₁ := (hfr₁.eq _ hlt (by omega) (by omega)).trans e
  have hfr₁' := ((World.Frame.rfl' W).push _).trans hfr₁
  cases b
  · mini [load_loc e₁]
    exact .ok ⟨rfl, hg₁, hfr₁'⟩
  · mini [store_loc e₁]
    have hlt₁ := (List.getElem?_eq_some_iff.mp e₁).1
    refine Sim.result' (repeat_loop (h₀ := h) (parent := parent) hf h.length (Nat.le_refl _) (by omega) (by omega) ?_ hr
      q st₁ (h₁.set h.length (.int q)) (hg₁.set (by omega) (by omega) _) (hfr₁'.set (Nat.le_refl _) _) (by simpa using hlt₁) (by simp [hlt₁])) ?_
    · intro temp h' e
      mini [load_loc e]
      refine ⟨_, rfl, fun q h' => ?_, fun q h' v e' => ?_⟩
      · mini
      · exact ⟨.unit, by mini [store_loc e']⟩
    · rintro _ h' ⟨b, q, st'⟩ ⟨rfl, e, rfl, hg', hfr⟩
      mini [load_loc e]
      exact .ok ⟨rfl, hg', hfr⟩
end
end PP.Mini
