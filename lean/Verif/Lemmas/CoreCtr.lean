import Verif.Lemmas.Inv

/-! # Contracts of the combinators of parser_core.rs -/
namespace PP
variable {R U : Type} {lr : Prop} {body : R → Expr R} {src : Source}

local notation "RunE" => fun e => Run lr body src e

section
variable {f g : PFn R U} {a b e : Expr R}

theorem ctr_and (h : Ctr lr body src f (RunE e)) : Ctr lr body src (andPredicateKernel f) (RunE (.andPredicate e)) := by
  intro D st parent pos hi hp hl
  refine Post.bind hp hl (h D st parent pos hi hp hl) ?_
  rintro (_|_) q st' D' ts hr hi' hp' hl'
  · exact Post.ret hi' (by simpa using Run.and_fail hr)
  · exact Post.ret hi' (by simpa using Run.and_ok hr)

theorem ctr_not (h : Ctr lr body src f (RunE e)) : Ctr lr body src (notPredicateKernel f) (RunE (.notPredicate e)) := by
  intro D st parent pos hi hp hl
  refine Post.bind hp hl (h D st parent pos hi hp hl) ?_
  rintro (_|_) q st' D' ts hr hi' hp' hl'
  · exact Post.ret hi' (by simpa using Run.not_ok hr)
  · exact Post.ret hi' (by simpa using Run.not_fail hr)

theorem ctr_opt (h : Ctr lr body src f (RunE e)) : Ctr lr body src (optionalKernel f) (RunE (.optional e)) := by
  intro D st parent pos hi hp hl
  refine Post.bind hp hl (h D st parent pos hi hp hl) ?_
  rintro (_|_) q st' D' ts hr hi' hp' hl'
  · exact Post.ret hi' (by simpa using Run.opt_none hr)
  · exact Post.ret hi' (by simpa using Run.opt_some hr)

theorem ctr_sub (h : Ctr lr body src f (RunE e)) : Ctr lr body src (subexpressionKernel f) (RunE (.subexpression e)) := by
  intro D st parent pos hi hp hl
  refine Post.bind hp hl (h D st parent pos hi hp hl) ?_
  rintro (_|_) q st' D' ts hr hi' hp' hl'
  · exact Post.ret hi' (by simpa using Run.sub_fail hr)
  · exact Post.ret hi' (by simpa using Run.sub_ok hr)

theorem ctr_seq (ha : Ctr lr body src f (RunE a)) (hb : Ctr lr body src g (RunE b)) :
    Ctr lr body src (sequenceKernel f g) (RunE (.sequence a b)) := by
  intro D st parent pos hi hp hl
  refine Post.bind hp hl (ha D st parent pos hi hp hl) ?_
  rintro (_|_) q st' D' ts hr hi' hp' hl'
  · exact Post.ret hi' (by simpa using Run.seq_fail1 hr)
  · refine Post.bind hp' hl' (hb D' st' parent q hi' hp' hl') ?_
    rintro (_|_) q2 st2 D2 us hr2 hi2 hp2 hl2
    · exact Post.ret hi2 (by simpa using Run.seq_fail2 hr hr2)
    · exact Post.ret hi2 (by simpa using Run.seq_ok hr hr2)

theorem ctr_choice (ha : Ctr lr body src f (RunE a)) (hb : Ctr lr body src g (RunE b)) :
    Ctr lr body src (orderedChoiceKernel f g) (RunE (.orderedChoice a b)) := by
  intro D st parent pos hi hp hl
  refine Post.bind hp hl (ha D st parent pos hi hp hl) ?_
  rintro (_|_) q st' D' ts hr hi' hp' hl'
  · refine Post.bind hp' hl' (hb D' st' parent pos hi' hp' hl') ?_
    rintro (_|_) q2 st2 D2 us hr2 hi2 hp2 hl2
    · exact Post.ret hi2 (by simpa using Run.choice_fail hr hr2)
    · exact Post.ret hi2 (by simpa using Run.choice_right hr hr2)
  · exact Post.ret hi' (by simpa using Run.choice_left hr)

theorem ctr_loop (h : Ctr lr body src f (RunE e)) (n : Nat) :
    Ctr lr body src (fun parent pos st => repeatLoop f parent n pos st) (RunE (.zeroOrMore e)) := by
  induction n with
  | zero => intro D st parent pos _ _ _; trivial
  | succ n ih =>
    intro D st parent pos hi hp hl
    refine Post.bind hp hl (h D st parent pos hi hp hl) ?_
    rintro (_|_) q st' D' ts hr hi' hp' hl'
    · exact Post.ret hi' (by simpa using Run.star_stop hr)
    · refine Post.mono (ih D' st' parent q hi' hp' hl') ?_
      intro b q2 us hr2
      cases hr2 with
      | star_stop h => exact Run.star_step hr (.star_stop h)
      | star_step h h' => exact Run.star_step hr (.star_step h h')

theorem ctr_star (h : Ctr lr body src f (RunE e)) (n : Nat) :
    Ctr lr body src (zeroOrMoreKernel n f) (RunE (.zeroOrMore e)) := ctr_loop h n

theorem ctr_plus (h : Ctr lr body src f (RunE e)) (n : Nat) :
    Ctr lr body src (oneOrMoreKernel n f) (RunE (.oneOrMore e)) := by
  intro D st parent pos hi hp hl
  refine Post.bind hp hl (h D st parent pos hi hp hl) ?_
  rintro (_|_) q st' D' ts hr hi' hp' hl'
  · exact Post.ret hi' (by simpa using Run.plus_fail hr)
  · refine Post.mono (ctr_loop h n D' st' parent q hi' hp' hl') ?_
    intro b q2 us hr2
    cases hr2 with
    | star_stop h => exact Run.plus_ok hr (.star_stop h)
    | star_step h h' => exact Run.plus_ok hr (.star_step h h')

end

theorem getChar_eq_some {src : Source} {p : Nat} {c : UInt8} :
    src.getChar p = some c ↔ p < src.len ∧ src.bytes[p]? = some c := by
  unfold Source.getChar; split
  · simp_all
  · next h => simp only [reduceCtorEq, false_iff]; exact fun h' => h h'.1

theorem ctr_terminal (c : UInt8) :
    Ctr (U := U) lr body src (liftPure fun p => terminalKernel src p c) (RunE (.terminal c)) := by
  intro D st parent pos hi hp hl
  refine Post.ret hi ?_
  dsimp only
  unfold terminalKernel
  split
  · next h => exact Run.terminal_ok (getChar_eq_some.mp h).1 (getChar_eq_some.mp h).2
  · next h => exact Run.terminal_fail (fun h' => h (getChar_eq_some.mpr h'))

theorem ctr_range (lo hi : Nat) :
    Ctr (U := U) lr body src (liftPure fun p => matchRangeKernel src p lo hi) (RunE (.matchRange lo hi)) := by
  intro D st parent pos hi hp hl
  refine Post.ret hi ?_
  dsimp only
  unfold matchRangeKernel
  split
  · next v h =>
    have h' := getChar_eq_some.mp h
    split
    · next h2 => exact Run.range_ok h'.1 h'.2 h2.1 h2.2
    · next h2 =>
      refine Run.range_fail ?_
      rintro ⟨c, c1, c2, c3, c4⟩
      have : c = v := by rw [h'.2] at c2; exact (Option.some.inj c2).symm
      subst this; exact h2 ⟨c3, c4⟩
  · next h =>
    refine Run.range_fail ?_
    rintro ⟨c, c1, c2, c3, c4⟩
    rw [getChar_eq_some.mpr ⟨c1, c2⟩] at h; cases h

theorem slice_cons (src : Source) {p n : Nat} {c : UInt8} (h : src.bytes[p]? = some c) :
    src.slice p (p + (n + 1)) = c :: src.slice (p + 1) (p + 1 + n) := by
  unfold Source.slice
  obtain ⟨hp, rfl⟩ := List.getElem?_eq_some_iff.mp h
  rw [List.drop_eq_getElem_cons hp, show p + (n + 1) - p = n + 1 by omega, show p + 1 + n - (p + 1) = n by omega]
  rfl

theorem stringTerminalLoop_eq (src : Source) (p0 : Nat) (d : List UInt8) : ∀ p,
    stringTerminalLoop src p0 p d =
      if (d = [] ∨ p + d.length ≤ src.len) ∧ src.slice p (p + d.length) = d then (true, p + d.length)
      else (false, p0) := by
  induction d with
  | nil => intro p; simp [stringTerminalLoop, Source.slice]
  | cons c cs ih =>
    intro p
    unfold stringTerminalLoop
    cases hg : src.getChar p with
    | none =>
      have : ¬ (p < src.len) := by
        intro hp
        have h2 := src.len_le
        have : src.bytes[p]? = some src.bytes[p] := List.getElem?_eq_getElem (by omega)
        rw [getChar_eq_some.mpr ⟨hp, this⟩] at hg; cases hg
      rw [if_neg]
      rintro ⟨h1, h2⟩
      simp at h1; omega
    | some s =>
      obtain ⟨h1, h2⟩ := getChar_eq_some.mp hg
      simp only [List.length_cons]
      rw [slice_cons src h2]
      split
      · next hcs =>
        subst hcs
        rw [ih]
        rw [show p + (cs.length + 1) = p + 1 + cs.length by omega]
        congr 1
        simp only [List.cons.injEq, reduceCtorEq, false_or, true_and, eq_iff_iff]
        constructor
        · rintro ⟨h3, h4⟩; exact ⟨by rcases h3 with rfl | h3 <;> simp_all <;> omega, h4⟩
        · rintro ⟨h3, h4⟩; exact ⟨by omega, h4⟩
      · next hcs =>
        rw [if_neg]
        rintro ⟨_, h4⟩
        exact hcs (List.cons.inj h4).1.symm

theorem ctr_string (d : List UInt8) :
    Ctr (U := U) lr body src (liftPure fun p => stringTerminalKernel src p d) (RunE (.stringTerminal d)) := by
  intro D st parent pos hi hp hl
  refine Post.ret hi ?_
  dsimp only
  unfold stringTerminalKernel
  rw [stringTerminalLoop_eq]
  split
  · next h => exact Run.string_ok h.1 h.2
  · next h => exact Run.string_fail h

end PP
