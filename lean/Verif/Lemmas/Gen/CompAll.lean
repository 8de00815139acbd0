import Verif.Lemmas.Gen.CompSpec

/-! # The expression functions compute `comp`: the recursion -/
namespace PP.Gen
section
variable {e : Env}

theorem ws_boundary {w : Bytes} {p q : Nat} (hw : IsWs w) (hc : Cut ⟨e.src⟩ p q w)
    (hn : Source.isCharBoundary e.src q = true) : Source.isCharBoundary e.src p = true := by
  cases w with
  | nil => have := hc.end; simp at this; rw [← this]; exact hn
  | cons d w =>
    refine boundary_of hc.get ?_
    rcases hw d (by simp) with rfl | rfl | rfl | rfl <;> decide

theorem ChainOp.byte_ok (o : ChainOp) : o.byte.toNat / 64 ≠ 2 := by cases o <;> decide
theorem PostOp.byte_ok (o : PostOp) : o.byte.toNat / 64 ≠ 2 := by cases o <;> decide

theorem DAtoms.text_head (o : ChainOp) (as : DAtoms) : ∃ t, as.text o = o.byte :: t := by
  cases as with
  | one w a => exact ⟨_, by rw [DAtoms.text]⟩
  | cons w a as => exact ⟨_, by rw [DAtoms.text]⟩

/-- What `At`, `Cut` and a boundary give at the place of an expression. -/
structure Here (e : Env) (i p : Nat) (T : Tree Dsl) (s : Bytes) : Prop where
  at_ : At e.tree i T
  cut : Cut ⟨e.src⟩ p (p + s.length) s
  bnd : Source.isCharBoundary e.src (p + s.length) = true

theorem chain_fn (o : ChainOp) : ∃ fn, (∀ n a i, expr e (n + 1) fn a i = (do
      let node ← e.tree.getNode i
      chainLoop e o.ref (expr e n .atom) node.children none a)) ∧
    (∀ n, (fun
      | Dsl.r_ordered_choice => some (expr e n .orderedChoice)
      | .r_sequence => some (expr e n .sequence)
      | .r_atom => some (expr e n .atom)
      | _ => none) o.rule = some (expr e n fn)) := by
  cases o with
  | seq => exact ⟨.sequence, fun _ _ _ => rfl, fun _ => rfl⟩
  | choice => exact ⟨.orderedChoice, fun _ _ _ => rfl, fun _ => rfl⟩

theorem pre_fn (o : PreOp) : ∃ fn, (∀ n a i, expr e (n + 1) fn a i = (do
      let node ← e.tree.getNode i
      childLoop e (fun | .r_nucleus => some (pushUnary o.ref (expr e n .nucleus)) | _ => none) node.children 0 a)) ∧
    (∀ n, (fun
      | .r_and_predicate => some (expr e n .andPredicate)
      | .r_not_predicate => some (expr e n .notPredicate)
      | .r_one_or_more => some (expr e n .oneOrMore)
      | .r_zero_or_more => some (expr e n .zeroOrMore)
      | .r_optional => some (expr e n .optional)
      | .r_nucleus => some (expr e n .nucleus)
      | _ => none : Dsl → _) o.rule = some (expr e n fn)) := by
  cases o with
  | and => exact ⟨.andPredicate, fun _ _ _ => rfl, fun _ => rfl⟩
  | not => exact ⟨.notPredicate, fun _ _ _ => rfl, fun _ => rfl⟩

theorem post_fn (o : PostOp) : ∃ fn, (∀ n a i, expr e (n + 1) fn a i = (do
      let node ← e.tree.getNode i
      childLoop e (fun | .r_nucleus => some (pushUnary o.ref (expr e n .nucleus)) | _ => none) node.children 0 a)) ∧
    (∀ n, (fun
      | .r_and_predicate => some (expr e n .andPredicate)
      | .r_not_predicate => some (expr e n .notPredicate)
      | .r_one_or_more => some (expr e n .oneOrMore)
      | .r_zero_or_more => some (expr e n .zeroOrMore)
      | .r_optional => some (expr e n .optional)
      | .r_nucleus => some (expr e n .nucleus)
      | _ => none : Dsl → _) o.rule = some (expr e n fn)) := by
  cases o with
  | plus => exact ⟨.oneOrMore, fun _ _ _ => rfl, fun _ => rfl⟩
  | star => exact ⟨.zeroOrMore, fun _ _ _ => rfl, fun _ => rfl⟩
  | opt => exact ⟨.optional, fun _ _ _ => rfl, fun _ => rfl⟩

theorem UnfL.one {t : Publisher Dsl} {ks : List Nat} {T : Tree Dsl} (h : UnfL t.nodes ks [T]) : ∃ k, ks = [k] ∧ At t k T := by
  obtain ⟨k, ks', rfl, h1, h2⟩ := UnfL.inv_cons h
  have := UnfL.inv_nil h2
  subst this
  exact ⟨k, rfl, h1⟩

theorem expr_zero {fn : Fn} {a : Acc} {i : Nat} : expr e 0 fn a i = .oof := by
  unfold expr; rfl

theorem DAtom.tree_rule (a : DAtom) (p : Nat) : ∃ s k, a.tree p = .node .r_atom (some s) k := by
  cases a <;> exact ⟨_, _, by rw [DAtom.tree]⟩
theorem DRhs.tree_rule (a : DRhs) (p : Nat) : ∃ q k, a.tree p = .node .r_rhs (some (p, q)) k := by
  cases a <;> exact ⟨_, _, by rw [DRhs.tree]⟩
theorem DNuc.tree_rule (a : DNuc) (p : Nat) : ∃ q k, a.tree p = .node .r_nucleus (some (p, q)) k := by
  cases a; exact ⟨_, _, by rw [DNuc.tree]⟩

theorem At.rule {t : Publisher Dsl} {i : Nat} {r : Dsl} {s : Nat × Nat} {k} (h : At t i (.node r (some s) k)) :
    ∃ nd, t.getNode i = .ok nd ∧ nd.rule = r ∧ nd.start = s.1 := by
  obtain ⟨nd, h1, h2, _, h4, _⟩ := At.inv h
  exact ⟨nd, h1, h2, h4⟩

/-- The chain loop after its first member. -/
theorem chainStep {o : Reference} {f : Nat → Acc → Nat → Out (Nat × Acc)} {k : Nat} {ks : List Nat} {a : Acc} {P : Piece}
    {Q : Out Piece} {l : Piece → Line} {v : Piece → Out Piece} {nd : Node Dsl} (h1 : e.tree.getNode k = .ok nd) (h2 : nd.rule = .r_atom)
    (hq : Conv (fun n => f n (a.1 ++ P.nodes, a.2 ++ P.hooks) k) (Q >>= fin (a.1 ++ P.nodes, a.2 ++ P.hooks)))
    (hv : ∀ Q, Conv (fun n => chainLoop e o (f n) ks
        (some ((Piece.snoc ⟨P.nodes ++ Q.nodes, P.lines ++ Q.lines, P.hooks ++ Q.hooks⟩ o (some (P.key a.1.length))
          (some (Q.key (a.1.length + P.nodes.length))) (l Q)).key a.1.length))
        (a.1 ++ (P.nodes ++ Q.nodes ++ [⟨o, some (P.key a.1.length), some (Q.key (a.1.length + P.nodes.length))⟩]),
          a.2 ++ (P.hooks ++ Q.hooks))) (v Q >>= fin a)) :
    Conv (fun n => chainLoop e o (f n) (k :: ks) (some (P.key a.1.length)) (a.1 ++ P.nodes, a.2 ++ P.hooks))
      ((Q >>= v) >>= fin a) := by
  have hh : ∀ n, chainLoop e o (f n) (k :: ks) (some (P.key a.1.length)) (a.1 ++ P.nodes, a.2 ++ P.hooks) =
      f n (a.1 ++ P.nodes, a.2 ++ P.hooks) k >>= fun x =>
        chainLoop e o (f n) ks (some (x.2.1.push o (some (P.key a.1.length)) (some x.1)).1)
          ((x.2.1.push o (some (P.key a.1.length)) (some x.1)).2, x.2.2) := by
    intro n
    simp only [chainLoop, h1, Out.bind_ok, h2]
    rfl
  refine Conv.congr ?_ hh
  cases Q with
  | oof => exact absurd rfl hq.1
  | panic x => exact Conv.bind_panic hq
  | ok Q =>
    refine Conv.bind_ok hq ?_
    have := hv Q
    refine (this.congr fun n => ?_).val rfl
    have he : a.1.length + (P.nodes.length + (Q.nodes.length + 1)) - 1 = a.1.length + (P.nodes.length + Q.nodes.length) := by omega
    simp [BTree.push, Piece.snoc, Piece.key, Nat.add_assoc, he]

theorem DBound.value_ne (b : DBound) : b.value ≠ .oof := by
  cases b with
  | term t => cases t <;> simp [DBound.value] <;> split <;> simp
  | int ds => simp [DBound.value]
  | hex ds => simp only [DBound.value]; split <;> simp
theorem DStr.data_ne (s : DStr) : s.data ≠ .oof := by
  cases s with
  | quoted t => simp [DStr.data]
  | int ds => simp [DStr.data]
  | hex ds => simp only [DStr.data]; split <;> simp; split <;> simp

mutual
theorem rhs_conv (he : e.Named) : ∀ {r : DRhs} {i p : Nat} {a : Acc}, r.WF → Here e i p (r.tree p) r.text →
    Conv (fun n => expr e n .rhs a i) (r.comp e.ctx a.1.length >>= fin a)
  | .atom w x, i, p, a, hr, ⟨h, hc, hn⟩ => by
    unfold DRhs.tree at h
    unfold DRhs.text at hc hn
    unfold DRhs.WF at hr
    obtain ⟨nd, h1, h2, h3, rfl, h5, h6⟩ := At.inv h
    obtain ⟨k, hk, h7⟩ := UnfL.one h6
    have ih := atom_conv he (a := a) hr.2 ⟨h7, (by have := hc.split.2; rwa [List.length_append, ← Nat.add_assoc] at this),
      by rwa [List.length_append, ← Nat.add_assoc] at hn⟩
    obtain ⟨s, kk, ht⟩ := x.tree_rule (nd.start + w.length)
    obtain ⟨ndk, g1, g2, _⟩ := At.rule (ht ▸ h7)
    unfold DRhs.comp
    refine Conv.succ expr_zero (ih.congr fun n => ?_)
    simp only [expr, h1, Out.bind_ok, hk]
    exact childLoop_one g1 (by rw [g2])
  | .chain o w x xs, i, p, a, hr, ⟨h, hc, hn⟩ => by
    unfold DRhs.tree at h
    unfold DRhs.text at hc hn
    unfold DRhs.WF at hr
    obtain ⟨nd, h1, h2, h3, rfl, h5, h6⟩ := At.inv h
    obtain ⟨k, hk, h7⟩ := UnfL.one h6
    obtain ⟨ndk, g1, g2, g3, g4, g5, g6⟩ := At.inv h7
    obtain ⟨kx, kxs, hkk, b1, b2⟩ := UnfL.inv_cons g6
    obtain ⟨s, kk, ht⟩ := x.tree_rule (nd.start + w.length)
    obtain ⟨ndx, x1, x2, _⟩ := At.rule (ht ▸ b1)
    obtain ⟨fn, f1, f2⟩ := chain_fn (e := e) o
    have c1 := hc.split.2
    have c2 := c1.split
    have c3 := c2.2
    have hb : Source.isCharBoundary e.src (nd.start + w.length + x.text.length) = true := by
      obtain ⟨t, ht⟩ := xs.text_head o
      rw [ht] at c3
      exact boundary_of c3.get o.byte_ok
    have ih := atom_conv he (a := a) hr.2.1 ⟨b1, c2.1, hb⟩
    have hl : nd.start + (w ++ (x.text ++ xs.text o)).length = nd.start + w.length + x.text.length + (xs.text o).length := by
      simp; omega
    rw [hl] at c3 hn
    have ihs := fun P => atoms_conv he (a := a) (o := o) (P := P) hr.2.2 b2 c3 hn
    unfold DRhs.comp
    refine Conv.succ expr_zero ?_
    have hh : ∀ n, expr e (n + 1) .rhs a i = expr e n fn a k := by
      intro n
      simp only [expr, h1, Out.bind_ok, hk]
      exact childLoop_one g1 (by rw [g2]; exact f2 n)
    refine Conv.congr ?_ hh
    refine Conv.succ expr_zero ?_
    have hh : ∀ n, expr e (n + 1) fn a k = expr e n .atom a kx >>= fun y => chainLoop e o.ref (expr e n .atom) kxs (some y.1) y.2 := by
      intro n
      rw [f1, g1]
      simp only [Out.bind_ok, hkk, chainLoop, x1, x2]
      rfl
    refine Conv.congr ?_ hh
    cases hP : x.comp e.ctx a.1.length with
    | oof => rw [hP] at ih; exact absurd rfl ih.1
    | panic y => rw [hP] at ih; exact Conv.bind_panic ih
    | ok P =>
      rw [hP] at ih
      exact Conv.bind_ok ih (ihs P)
theorem atoms_conv (he : e.Named) : ∀ {as : DAtoms} {ks : List Nat} {p : Nat} {a : Acc} {o : ChainOp} {P : Piece}, as.WF →
    UnfL e.tree.nodes ks (as.trees o p) → Cut ⟨e.src⟩ p (p + (as.text o).length) (as.text o) →
    Source.isCharBoundary e.src (p + (as.text o).length) = true →
    Conv (fun n => chainLoop e o.ref (expr e n .atom) ks (some (P.key a.1.length)) (a.1 ++ P.nodes, a.2 ++ P.hooks))
      (as.comp e.ctx o a.1.length P >>= fin a)
  | .one w x, ks, p, a, o, P, hr, h, hc, hn => by
    unfold DAtoms.trees at h
    unfold DAtoms.text at hc hn
    unfold DAtoms.WF at hr
    unfold DAtoms.comp
    obtain ⟨k, rfl, h7⟩ := UnfL.one h
    have hl : p + (o.byte :: (w ++ x.text)).length = p + 1 + w.length + x.text.length := by simp; omega
    rw [hl] at hc hn
    have ih := atom_conv he (a := (a.1 ++ P.nodes, a.2 ++ P.hooks)) hr.2 ⟨h7, hc.uncons.2.split.2, hn⟩
    obtain ⟨s, kk, ht⟩ := x.tree_rule (p + 1 + w.length)
    obtain ⟨ndk, g1, g2, _⟩ := At.rule (ht ▸ h7)
    simp only [List.length_append] at ih
    refine chainStep (o := o.ref) (l := fun Q => .binary o.bin (a.1.length + P.nodes.length + Q.nodes.length) (P.key a.1.length) (Q.key (a.1.length + P.nodes.length))) g1 g2 ih ?_
    intro Q
    refine (Conv.ok _).congr fun n => ?_
    simp only [chainLoop, Option.getD_some, Piece.snoc]
  | .cons w x xs, ks, p, a, o, P, hr, h, hc, hn => by
    unfold DAtoms.trees at h
    unfold DAtoms.text at hc hn
    unfold DAtoms.WF at hr
    unfold DAtoms.comp
    obtain ⟨k, ks, rfl, h7, h8⟩ := UnfL.inv_cons h
    have hl : p + (o.byte :: (w ++ (x.text ++ xs.text o))).length = p + 1 + w.length + x.text.length + (xs.text o).length := by
      simp; omega
    rw [hl] at hc hn
    have c1 := hc.uncons.2.split.2
    have c2 := c1.split
    have c3 := c2.2
    have hb : Source.isCharBoundary e.src (p + 1 + w.length + x.text.length) = true := by
      obtain ⟨t, ht⟩ := xs.text_head o
      rw [ht] at c3
      exact boundary_of c3.get o.byte_ok
    have ih := atom_conv he (a := (a.1 ++ P.nodes, a.2 ++ P.hooks)) hr.2.1 ⟨h7, c2.1, hb⟩
    obtain ⟨s, kk, ht⟩ := x.tree_rule (p + 1 + w.length)
    obtain ⟨ndk, g1, g2, _⟩ := At.rule (ht ▸ h7)
    simp only [List.length_append] at ih
    refine chainStep (o := o.ref) (l := fun Q => .binary o.bin (a.1.length + P.nodes.length + Q.nodes.length) (P.key a.1.length) (Q.key (a.1.length + P.nodes.length))) g1 g2 ih ?_
    intro Q
    exact atoms_conv he (a := a) (o := o) (P := Piece.snoc ⟨P.nodes ++ Q.nodes, P.lines ++ Q.lines, P.hooks ++ Q.hooks⟩ o.ref (some (P.key a.1.length))
          (some (Q.key (a.1.length + P.nodes.length))) _) hr.2.2 h8 c3 hn
theorem atom_conv (he : e.Named) : ∀ {x : DAtom} {i p : Nat} {a : Acc}, x.WF → Here e i p (x.tree p) x.text →
    Conv (fun n => expr e n .atom a i) (x.comp e.ctx a.1.length >>= fin a)
  | .plain m, i, p, a, hr, ⟨h, hc, hn⟩ => by
    unfold DAtom.tree at h
    unfold DAtom.text at hc hn
    unfold DAtom.WF at hr
    unfold DAtom.comp
    obtain ⟨nd, h1, h2, h3, rfl, h5, h6⟩ := At.inv h
    obtain ⟨k, hk, h7⟩ := UnfL.one h6
    have ih := nuc_conv he (a := a) hr.1 ⟨h7, hc, hn⟩
    obtain ⟨s, kk, ht⟩ := m.tree_rule nd.start
    obtain ⟨ndk, g1, g2, _⟩ := At.rule (ht ▸ h7)
    refine Conv.succ expr_zero (ih.congr fun n => ?_)
    simp only [expr, h1, Out.bind_ok, hk]
    exact childLoop_one g1 (by rw [g2])
  | .pre o m, i, p, a, hr, ⟨h, hc, hn⟩ => by
    unfold DAtom.tree at h
    unfold DAtom.text at hc hn
    unfold DAtom.WF at hr
    unfold DAtom.comp
    obtain ⟨nd, h1, h2, h3, rfl, h5, h6⟩ := At.inv h
    obtain ⟨k, hk, h7⟩ := UnfL.one h6
    obtain ⟨ndk, g1, g2, g3, g4, g5, g6⟩ := At.inv h7
    obtain ⟨j, hj, h8⟩ := UnfL.one g6
    have hl : nd.start + (o.byte :: m.text).length = nd.start + 1 + m.text.length := by simp; omega
    rw [hl] at hc hn
    have ih := nuc_conv he (a := a) hr ⟨h8, hc.uncons.2, hn⟩
    obtain ⟨s, kk, ht⟩ := m.tree_rule (nd.start + 1)
    obtain ⟨ndj, j1, j2, _⟩ := At.rule (ht ▸ h8)
    obtain ⟨fn, f1, f2⟩ := pre_fn (e := e) o
    have := unary_conv (fn := fn) (r := o.ref) (l := fun P => .unary o.un (a.1.length + P.nodes.length) (P.key a.1.length)) (fun n => f1 n a k) expr_zero g1 hj j1 j2 ih
    refine Conv.succ expr_zero (this.congr fun n => ?_)
    simp only [expr, h1, Out.bind_ok, hk]
    exact childLoop_one g1 (by rw [g2]; exact f2 n)
  | .post o m w, i, p, a, hr, ⟨h, hc, hn⟩ => by
    unfold DAtom.tree at h
    unfold DAtom.text at hc hn
    unfold DAtom.WF at hr
    unfold DAtom.comp
    obtain ⟨nd, h1, h2, h3, rfl, h5, h6⟩ := At.inv h
    obtain ⟨k, hk, h7⟩ := UnfL.one h6
    obtain ⟨ndk, g1, g2, g3, g4, g5, g6⟩ := At.inv h7
    obtain ⟨j, hj, h8⟩ := UnfL.one g6
    have ih := nuc_conv he (a := a) hr.1 ⟨h8, hc.split.1, boundary_of hc.split.2.get o.byte_ok⟩
    obtain ⟨s, kk, ht⟩ := m.tree_rule nd.start
    obtain ⟨ndj, j1, j2, _⟩ := At.rule (ht ▸ h8)
    obtain ⟨fn, f1, f2⟩ := post_fn (e := e) o
    have := unary_conv (fn := fn) (r := o.ref) (l := fun P => .unary o.un (a.1.length + P.nodes.length) (P.key a.1.length)) (fun n => f1 n a k) expr_zero g1 hj j1 j2 ih
    refine Conv.succ expr_zero (this.congr fun n => ?_)
    simp only [expr, h1, Out.bind_ok, hk]
    exact childLoop_one g1 (by rw [g2]; exact f2 n)
theorem nuc_conv (he : e.Named) : ∀ {x : DNuc} {i p : Nat} {a : Acc}, x.WF → Here e i p (x.tree p) x.text →
    Conv (fun n => expr e n .nucleus a i) (x.comp e.ctx a.1.length >>= fin a)
  | .mk c w, i, p, a, hr, ⟨h, hc, hn⟩ => by
    unfold DNuc.tree at h
    unfold DNuc.text at hc hn
    unfold DNuc.WF at hr
    unfold DNuc.comp
    obtain ⟨nd, h1, h2, h3, rfl, h5, h6⟩ := At.inv h
    obtain ⟨k, hk, h7⟩ := UnfL.one h6
    obtain ⟨hc, hc2⟩ := hc.split
    have hn := ws_boundary hr.2 hc2 hn
    cases c with
    | range w0 w1 lo hi w2 =>
      have h7' := h7
      unfold DCore.tree at h7'
      obtain ⟨ndk, g1, g2, _⟩ := At.rule h7'
      have hwf := hr.1
      unfold DCore.WF at hwf
      have := range_spec (a := a) hwf.2.2.1 hwf.2.2.2.1 hwf.2.2.2.2 h7 hc
      refine Conv.succ expr_zero (((Conv.const (v := _) ?_).congr fun n => ?_).val this)
      · rw [this]
        unfold DCore.comp
        cases hlo : lo.value with
        | oof => exact absurd hlo (DBound.value_ne lo)
        | panic => simp
        | ok => cases hhi : hi.value with
          | oof => exact absurd hhi (DBound.value_ne hi)
          | panic => simp
          | ok => simp [fin]
      · simp only [expr, h1, Out.bind_ok, hk]
        exact childLoop_one g1 (by rw [g2])
    | term t =>
      have h7' := h7
      unfold DCore.tree at h7'
      unfold DCore.text at hc
      obtain ⟨ndk, g1, g2, _⟩ : ∃ nd, e.tree.getNode k = .ok nd ∧ nd.rule = .r_terminal ∧ True := by
        cases t with
        | chr c => obtain ⟨a, b, c, _⟩ := At.rule h7'; exact ⟨a, b, c, trivial⟩
        | esc c => obtain ⟨a, b, c, _⟩ := At.rule h7'; exact ⟨a, b, c, trivial⟩
        | eps => obtain ⟨a, b, c, _⟩ := At.rule h7'; exact ⟨a, b, c, trivial⟩
      have hwf := hr.1
      unfold DCore.WF at hwf
      have := terminal_spec (a := a) hwf h7' hc
      refine Conv.succ expr_zero (((Conv.const (v := _) ?_).congr fun n => ?_).val this)
      · rw [this]
        cases t with
        | chr c => unfold DCore.comp; split <;> simp [fin]
        | esc c => unfold DCore.comp; simp [fin]
        | eps => unfold DCore.comp; simp [fin]
      · simp only [expr, h1, Out.bind_ok, hk]
        exact childLoop_one g1 (by rw [g2])
    | str s =>
      have h7' := h7
      unfold DCore.tree at h7'
      unfold DCore.text at hc hn
      obtain ⟨ndk, g1, g2, _⟩ : ∃ nd, e.tree.getNode k = .ok nd ∧ nd.rule = .r_stringterminal ∧ True := by
        cases s with
        | quoted c => obtain ⟨a, b, c, _⟩ := At.rule h7'; exact ⟨a, b, c, trivial⟩
        | hex c => obtain ⟨a, b, c, _⟩ := At.rule h7'; exact ⟨a, b, c, trivial⟩
        | int c => obtain ⟨a, b, c, _⟩ := At.rule h7'; exact ⟨a, b, c, trivial⟩
      have hwf := hr.1
      unfold DCore.WF at hwf
      have := string_spec (a := a) hwf h7' hc hn
      refine Conv.succ expr_zero (((Conv.const (v := _) ?_).congr fun n => ?_).val this)
      · rw [this]
        unfold DCore.comp
        cases hs : s.data with
        | oof => exact absurd hs (DStr.data_ne s)
        | panic => simp
        | ok => simp [fin]
      · simp only [expr, h1, Out.bind_ok, hk]
        exact childLoop_one g1 (by rw [g2])
    | ref nm =>
      have h7' := h7
      unfold DCore.tree at h7'
      unfold DCore.text at hc
      obtain ⟨ndk, g1, g2, _⟩ := At.rule h7'
      have hwf := hr.1
      unfold DCore.WF at hwf
      have := varName_spec (a := a) he hwf h7 (by simpa using hc)
      refine Conv.succ expr_zero (((Conv.const (v := _) ?_).congr fun n => ?_).val this)
      · rw [this]
        unfold DCore.comp
        split
        · simp [fin]
        · split <;> simp [fin]
      · simp only [expr, h1, Out.bind_ok, hk]
        exact childLoop_one g1 (by rw [g2])
    | sub r =>
      have hwf := hr.1
      unfold DCore.WF at hwf
      unfold DCore.tree at h7
      unfold DCore.text at hc
      obtain ⟨ndk, g1, g2, g3, g4, g5, g6⟩ := At.inv h7
      obtain ⟨j, hj, h8⟩ := UnfL.one g6
      obtain ⟨s, kk, ht⟩ := r.tree_rule (nd.start + 1)
      obtain ⟨ndj, j1, j2, _⟩ := At.rule (ht ▸ h8)
      have c1 := hc.uncons.2.split
      have ih := rhs_conv he (a := a) hwf ⟨h8, c1.1, boundary_of c1.2.get (by decide)⟩
      unfold DCore.comp
      have := pushUnary_conv (r := .subexpression) (l := fun P => .unary .sub (a.1.length + P.nodes.length) (P.key a.1.length)) ih
      have h2 : Conv (fun n => expr e n .subexpression a k) _ := Conv.succ expr_zero (this.congr fun n => by
        simp only [expr, g1, Out.bind_ok, hj]
        exact childLoop_one j1 (by rw [j2]))
      refine Conv.succ expr_zero (h2.congr fun n => ?_)
      simp only [expr, h1, Out.bind_ok, hk]
      exact childLoop_one g1 (by rw [g2])
    | hook nm r =>
      have hwf := hr.1
      unfold DCore.WF at hwf
      unfold DCore.tree at h7
      unfold DCore.text at hc
      obtain ⟨ndk, g1, g2, g3, g4, g5, g6⟩ := At.inv h7
      obtain ⟨j, hj, h8⟩ := UnfL.one g6
      obtain ⟨s, kk, ht⟩ := r.tree_rule (nd.start + nm.length + 1)
      obtain ⟨ndj, j1, j2, j3⟩ := At.rule (ht ▸ h8)
      have c0 := hc.split
      have c1 := c0.2.uncons.2.split
      have ih := rhs_conv he (a := (a.1, a.2 ++ [nm])) hwf.2 ⟨h8, c1.1, boundary_of c1.2.get (by decide)⟩
      have := pushUnary_conv (r := .subexpression) (l := fun P => .unary .sub (a.1.length + P.nodes.length) (P.key a.1.length)) ih
      have h2 : Conv (fun n => expr e n .subexpression (a.1, a.2 ++ [nm]) k) _ := Conv.succ expr_zero (this.congr fun n => by
        simp only [expr, g1, Out.bind_ok, hj]
        exact childLoop_one j1 (by rw [j2]))
      have hsl : Source.strSlice e.src nd.start (nd.start + nm.length) = .ok nm := by
        refine c0.1.strSlice ?_ (boundary_of c0.2.get (by decide))
        have hh := hwf.1.hd (s := [])
        cases nm with
        | nil => exact absurd rfl hwf.1.ne
        | cons c nm => exact boundary_of c0.1.get (hh c rfl)
      have h3 : ∀ n, expr e (n + 1) .hookedCall a k = expr e n .subexpression (a.1, a.2 ++ [nm]) k >>= fun y =>
          Out.ok ((y.2.1.push (.hookedCall nm) (some y.1) none).1, (y.2.1.push (.hookedCall nm) (some y.1) none).2, y.2.2) := by
        intro n
        simp only [expr, g1, Out.bind_ok, hj, List.getElem?_cons_zero, Out.ofOption_some, j1, j3, g4]
        rw [if_neg (by omega), show nd.start + nm.length + 1 - 1 = nd.start + nm.length by omega, hsl]
        rfl
      have h4 : Conv (fun n => expr e n .hookedCall a k) ((DCore.hook nm r).comp e.ctx a.1.length >>= fin a) := by
        refine Conv.succ expr_zero (Conv.congr ?_ h3)
        have := Conv.bind h2 (g := fun _ y => Out.ok ((y.2.1.push (.hookedCall nm) (some y.1) none).1, (y.2.1.push (.hookedCall nm) (some y.1) none).2, y.2.2))
          (fun y _ => Conv.ok _)
        refine this.val ?_
        unfold DCore.comp
        cases r.comp e.ctx a.1.length with
        | oof => rfl
        | panic => rfl
        | ok P => simp [fin, Piece.snoc, Piece.key, BTree.push]
      refine Conv.succ expr_zero (h4.congr fun n => ?_)
      simp only [expr, h1, Out.bind_ok, hk]
      exact childLoop_one g1 (by rw [g2])
end

end
end PP.Gen
