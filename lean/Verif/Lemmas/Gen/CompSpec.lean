import Verif.Lemmas.Gen.Comp

/-! # The expression functions compute `comp` -/
namespace PP.Gen
section
variable {e : Env} {a : Acc} {i p : Nat}

theorem bind_ok_right {α : Type} (x : Out α) : (x >>= fun y => Out.ok y) = x := by cases x <;> rfl

theorem childLoop_one {f : Dsl → Option (Acc → Nat → Out (Nat × Acc))} {nd : Node Dsl} {g} (h : e.tree.getNode i = .ok nd)
    (hf : f nd.rule = some g) : childLoop e f [i] 0 a = g a i := by
  simp only [childLoop, h, Out.bind_ok, hf]
  cases g a i with
  | oof => rfl
  | panic p => rfl
  | ok x => rfl

theorem pushUnary_eq {r : Reference} {f : Acc → Nat → Out (Nat × Acc)} {P : Out Piece}
    {l : Piece → Line} (h : f a i = P >>= fin a) :
    pushUnary r f a i = (P >>= fun P => Out.ok (P.snoc r (some (P.key a.1.length)) none (l P))) >>= fin a := by
  unfold pushUnary
  rw [h]
  cases P with
  | oof => rfl
  | panic p => rfl
  | ok P => simp [fin, BTree.push, Piece.snoc, Piece.key]

theorem pushUnary_conv {r : Reference} {f : Nat → Acc → Nat → Out (Nat × Acc)} {P : Out Piece}
    {l : Piece → Line} (h : Conv (fun n => f n a i) (P >>= fin a)) :
    Conv (fun n => pushUnary r (f n) a i)
      ((P >>= fun P => Out.ok (P.snoc r (some (P.key a.1.length)) none (l P))) >>= fin a) := by
  rw [← pushUnary_eq (f := fun _ _ => P >>= fin a) (a := a) (i := i) rfl]
  unfold pushUnary
  refine Conv.bind h ?_
  rintro ⟨k, a'⟩ hk
  exact Conv.ok _

/-- `unary` functions: one `Nucleus` child. -/
theorem unary_conv {fn : Fn} {r : Reference} {nd : Node Dsl} {j : Nat} {ndj : Node Dsl} {P : Out Piece} {l : Piece → Line}
    (hfn : ∀ n, expr e (n + 1) fn a i = (do
      let node ← e.tree.getNode i
      childLoop e (fun | .r_nucleus => some (pushUnary r (expr e n .nucleus)) | _ => none) node.children 0 a))
    (h0 : expr e 0 fn a i = .oof)
    (h1 : e.tree.getNode i = .ok nd) (h2 : nd.children = [j]) (h3 : e.tree.getNode j = .ok ndj) (h4 : ndj.rule = .r_nucleus)
    (ih : Conv (fun n => expr e n .nucleus a j) (P >>= fin a)) :
    Conv (fun n => expr e n fn a i)
      ((P >>= fun P => Out.ok (P.snoc r (some (P.key a.1.length)) none (l P))) >>= fin a) := by
  refine Conv.succ h0 ((pushUnary_conv (r := r) (l := l) ih).congr fun n => ?_)
  rw [hfn, h1, Out.bind_ok, h2, childLoop_one h3 (g := pushUnary r (expr e n .nucleus)) (by rw [h4])]

theorem chr_inner {src : Source} {q : Nat} {c : UInt8} (h : Cut src p q [39, c, 39]) (hp : p + 3 = q) :
    Source.strSlice src.bytes (p + 1) (q - 1) = if c.toNat / 64 = 2 then .panic .slice else .ok [c] := by
  by_cases hc : c.toNat / 64 = 2
  · rw [if_pos hc]
    unfold Source.strSlice
    rw [if_neg]
    rintro ⟨_, _, h3, _⟩
    rw [not_boundary_of (by omega) h.uncons.2.get hc] at h3
    cases h3
  · rw [if_neg hc]
    exact Cut.inner (s := [c]) h (.cons hc) (by decide)

theorem terminal_spec {t : DTerm} (ht : t.WF) (h : At e.tree i (t.tree p)) (hc : Cut ⟨e.src⟩ p (p + t.text.length) t.text) :
    terminal e a i = ((DCore.term t).comp e.ctx a.1.length) >>= fin a := by
  cases t with
  | chr c =>
    obtain ⟨nd, h1, h2, h3, rfl, h5, h6⟩ := At.inv h
    have hs := chr_inner hc rfl
    simp only [terminal, h1, Out.bind_ok, h5]
    rw [if_neg (by omega), if_neg (by omega), if_neg (by omega)]
    simp only [DTerm.text, List.length_cons, List.length_nil] at hs
    rw [show nd.start + 3 - 1 = nd.start + (0 + 1 + 1 + 1) - 1 by omega, hs]
    by_cases hcc : c.toNat / 64 = 2
    · simp [hcc, DCore.comp]
    · simp only [hcc, if_false, Out.bind_ok, DCore.comp]
      by_cases c1 : c = 92
      · subst c1; simp [chrContent, BTree.push, fin, leafP, Piece.key]
      · by_cases c2 : c = 39
        · subst c2; simp [chrContent, BTree.push, fin, leafP, Piece.key]
        · simp [chrContent, c1, c2, BTree.push, fin, leafP, Piece.key]
  | esc c =>
    obtain ⟨nd, h1, h2, h3, rfl, h5, h6⟩ := At.inv h
    have hs : Source.strSlice e.src (nd.start + 1) (nd.start + 4 - 1) = .ok [92, c] :=
      Cut.inner (src := ⟨e.src⟩) (s := [92, c]) (a := 39) (d := 39) hc (.cons (by decide)) (by decide)
    simp only [terminal, h1, Out.bind_ok, h5]
    rw [if_neg (by omega), if_neg (by omega), if_neg (by omega), hs]
    simp [DCore.comp, BTree.push, fin, leafP, Piece.key]
  | eps =>
    obtain ⟨nd, h1, h2, h3, rfl, h5, h6⟩ := At.inv h
    simp only [terminal, h1, Out.bind_ok, h5]
    rw [if_neg (by omega), if_pos (by omega)]
    simp [DCore.comp, BTree.push, fin, Piece.key]

theorem IsName.ascii {nm : Bytes} (h : IsName nm) : ∀ c ∈ nm, c.toNat / 64 ≠ 2 := by
  have hl : ∀ c, IsLetter c → c.toNat / 64 ≠ 2 := by intro c hc; have := hc.toNat; omega
  cases nm with
  | nil => cases h
  | cons c nm =>
    intro d hd
    rcases List.mem_cons.mp hd with rfl | hd
    · exact hl _ h.1
    · rcases h.2 d hd with h | rfl
      · exact hl _ h
      · decide

theorem IsName.hd {nm s : Bytes} (h : IsName nm) : Hd (nm ++ s) fun c => c.toNat / 64 ≠ 2 := by
  cases nm with
  | nil => cases h
  | cons c nm => exact .cons (h.ascii c (by simp))
theorem IsName.ne {nm : Bytes} (h : IsName nm) : nm ≠ [] := by
  rintro rfl; exact h

theorem cap_perm {l l' : List Bytes} (h : l.Perm l') : sortNames (l.map cap) = sortNames (l'.map cap) :=
  sortNames_perm (h.map cap)

theorem varName_spec (he : e.Named) {nm : Bytes} (hn : IsName nm) (h : At e.tree i ((DCore.ref nm).tree p []))
    (hc : Cut ⟨e.src⟩ p (p + (nm.length + 2)) (60 :: (nm ++ [62]))) :
    varName e a i = ((DCore.ref nm).comp e.ctx a.1.length) >>= fin a := by
  unfold DCore.tree at h
  obtain ⟨nd, h1, h2, h3, rfl, h5, h6⟩ := At.inv h
  have hs : Source.strSlice e.src (nd.start + 1) (nd.start + (nm.length + 2) - 1) = .ok nm :=
    Cut.inner (src := ⟨e.src⟩) hc hn.hd (by decide)
  simp only [varName, h1, Out.bind_ok, h5]
  rw [if_neg (by omega), hs]
  simp only [Out.bind_ok, DCore.comp, Env.ctx]
  cases hl : e.lr.get nm with
  | some inv =>
    have hp := e.ord.ok [7, i] inv
    have hm := mapOut_cap (fun x hx => he nm inv hl x (hp.mem_iff.mp hx))
    simp [hm, BTree.push, fin, leafP, Piece.key, cap_perm hp]
  | none =>
    by_cases hi : e.sym.isInline nm = true
    · simp [hi, BTree.push, fin, leafP, Piece.key]
    · simp [hi, BTree.push, fin, leafP, Piece.key]

theorem bound_spec {b : DBound} (hb : b.WF) {ks : List Nat} {start : Option Nat} {ret : Nat} {t : BTree}
    (h : At e.tree i (b.tree p)) (hc : Cut ⟨e.src⟩ p (p + b.text.length) b.text)
    (hn : Source.isCharBoundary e.src (p + b.text.length) = true) :
    matchRangeLoop e (i :: ks) start ret t = (b.value >>= fun v => match start with
      | none => matchRangeLoop e ks (some v) ret t
      | some s => matchRangeLoop e ks start t.length (t ++ [⟨.matchRange s v, none, none⟩])) := by
  cases b with
  | term t =>
    cases t with
    | chr c =>
      obtain ⟨nd, h1, h2, h3, rfl, h5, h6⟩ := At.inv h
      have hs : Source.strSlice e.src (nd.start + 1) (nd.start + 3 - 1) = _ := chr_inner hc rfl
      simp only [matchRangeLoop, h1, Out.bind_ok, h2, h5, if_true]
      rw [if_neg (by omega), hs]
      by_cases hcc : c.toNat / 64 = 2
      · simp [hcc, DBound.value]
      · simp only [hcc, if_false, DBound.value, Out.bind_ok]
        cases start <;> rfl
    | esc c =>
      obtain ⟨nd, h1, h2, h3, rfl, h5, h6⟩ := At.inv h
      have hs : Source.strSlice e.src (nd.start + 1) (nd.start + 4 - 1) = .ok [92, c] :=
        Cut.inner (src := ⟨e.src⟩) (s := [92, c]) (a := 39) (d := 39) hc (.cons (by decide)) (by decide)
      simp only [matchRangeLoop, h1, Out.bind_ok, h2, h5, if_true]
      rw [if_neg (by omega), hs]
      simp only [DBound.value, Out.bind_ok]
      cases start <;> rfl
    | eps =>
      obtain ⟨nd, h1, h2, h3, rfl, h5, h6⟩ := At.inv h
      have hs : Source.strSlice e.src (nd.start + 1) (nd.start + 2 - 1) = .ok [] :=
        Cut.inner (src := ⟨e.src⟩) (s := []) (a := 39) (d := 39) hc (.cons (by decide)) (by decide)
      simp only [matchRangeLoop, h1, Out.bind_ok, h2, h5, if_true]
      rw [if_neg (by omega), hs]
      simp [DBound.value]
  | int ds =>
    obtain ⟨nd, h1, h2, h3, rfl, h5, h6⟩ := At.inv h
    simp [matchRangeLoop, h1, h2, DBound.value]
  | hex ds =>
    obtain ⟨nd, h1, h2, h3, rfl, h5, h6⟩ := At.inv h
    have hc' : Cut ⟨e.src⟩ nd.start (nd.start + (ds.length + 2)) (48 :: 120 :: ds) := by
      simpa [DBound.text, hexText] using hc
    have hd : ∃ d ds', ds = d :: ds' ∧ d.toNat / 64 ≠ 2 := by
      obtain ⟨h1, h2⟩ : IsHex ds := hb
      cases ds with
      | nil => exact absurd rfl h1
      | cons d ds =>
        refine ⟨d, ds, rfl, ?_⟩
        have := h2 d (by simp)
        unfold IsHexDigit at this
        omega
    have hs : Source.strSlice e.src (nd.start + 2) (nd.start + 2 + ds.length) = .ok ds := by
      have hcc := hc'.uncons.2.uncons.2
      rw [show nd.start + (ds.length + 2) = nd.start + 2 + ds.length by omega] at hcc
      refine Cut.strSlice (src := ⟨e.src⟩) hcc ?_ ?_
      · obtain ⟨d, ds', rfl, hd⟩ := hd
        exact boundary_of hcc.get hd
      · rw [show nd.start + 2 + ds.length = nd.start + (DBound.hex ds).text.length by
          simp [DBound.text, hexText]; omega]
        exact hn
    simp only [matchRangeLoop, h1, Out.bind_ok, h2, h5, if_true]
    simp only [reduceCtorEq, if_false]
    rw [hs]
    simp only [DBound.value, Out.bind_ok]
    cases fromHex ds with
    | none => rfl
    | some v => cases start <;> rfl

theorem IsWs.hd {w s : Bytes} {c : UInt8} (h : IsWs w) (hc : c.toNat / 64 ≠ 2) : Hd (w ++ c :: s) fun c => c.toNat / 64 ≠ 2 :=
  Hd.append (fun d hd => by rcases h d hd with rfl | rfl | rfl | rfl <;> decide) (.cons hc)

theorem range_spec {w0 w1 w2 w : Bytes} {lo hi : DBound} (hlo : lo.WF) (hhi : hi.WF) (hw2 : IsWs w2)
    (h : At e.tree i ((DCore.range w0 w1 lo hi w2).tree p w))
    (hc : Cut ⟨e.src⟩ p (p + (DCore.range w0 w1 lo hi w2).text.length) (DCore.range w0 w1 lo hi w2).text) :
    orderedChoiceMatchRange e a i = ((DCore.range w0 w1 lo hi w2).comp e.ctx a.1.length) >>= fin a := by
  unfold DCore.tree at h
  obtain ⟨nd, h1, h2, h3, rfl, h5, h6⟩ := At.inv h
  obtain ⟨k1, ks, hk, a1, h6⟩ := UnfL.inv_cons h6
  obtain ⟨k2, ks', rfl, a2, h6⟩ := UnfL.inv_cons h6
  have := UnfL.inv_nil h6
  subst this
  generalize nd.start = p at *
  have hc : Cut ⟨e.src⟩ p (p + (DCore.range w0 w1 lo hi w2).text.length)
    (w0 ++ 91 :: (w1 ++ (lo.text ++ 46 :: 46 :: (hi.text ++ (w2 ++ [93]))))) := by
      simpa only [DCore.text] using hc
  have c1 := hc.split.2.uncons.2.split.2
  have c2 := c1.split.2.uncons.2.uncons.2
  obtain ⟨c1a, c1b⟩ := c1.split
  obtain ⟨c2a, c2b⟩ := c2.split
  have b1 : Source.isCharBoundary e.src (p + w0.length + 1 + w1.length + lo.text.length) = true :=
    boundary_of c1b.get (by decide)
  have b2 : Source.isCharBoundary e.src (p + w0.length + 1 + w1.length + lo.text.length + 1 + 1 + hi.text.length) = true := by
    have hh := hw2.hd (s := []) (c := 93) (by decide)
    cases hw : w2 with
    | nil => rw [hw] at c2b; exact boundary_of c2b.get (by decide)
    | cons d w2 => rw [hw] at c2b hh; exact boundary_of c2b.get (hh d rfl)
  have r2 : ∀ s ret t, matchRangeLoop e [k2] s ret t = _ := fun s ret t => bound_spec hhi (ks := []) (start := s) (ret := ret) (t := t) a2 c2a b2
  simp only [orderedChoiceMatchRange, h1, Out.bind_ok, hk]
  rw [bound_spec hlo a1 c1a b1]
  simp only [DCore.comp]
  cases lo.value with
  | oof => rfl
  | panic x => rfl
  | ok s =>
    simp only [Out.bind_ok, r2]
    cases hi.value with
    | oof => rfl
    | panic x => rfl
    | ok v => simp [matchRangeLoop, fin, leafP, Piece.key]

theorem leaves_at {r : Dsl} {n : Nat} : ∀ {ks p}, UnfL e.tree.nodes ks (leaves r p n) →
    ks.length = n ∧ ∀ j (hj : j < ks.length), ∃ nd, e.tree.getNode ks[j] = .ok nd ∧ nd.rule = r ∧ nd.start = p + j ∧ nd.stop = p + j + 1 := by
  induction n with
  | zero => intro ks p h; have := UnfL.inv_nil h; subst this; simp
  | succ n ih =>
    intro ks p h
    obtain ⟨k, ks', rfl, a1, h⟩ := UnfL.inv_cons h
    obtain ⟨nd, g1, g2, _, g4, g5, _⟩ := At.inv a1
    obtain ⟨i1, i2⟩ := ih h
    refine ⟨by simp [i1], ?_⟩
    intro j hj
    cases j with
    | zero => exact ⟨nd, by simpa using g1, g2, by simpa using g4, by simpa using g5⟩
    | succ j =>
      obtain ⟨nd, g1, g2, g4, g5⟩ := i2 j (by simpa using hj)
      exact ⟨nd, by simpa using g1, g2, by omega, by omega⟩

theorem stringData_quoted {s : Bytes} : ∀ {ks p q}, UnfL e.tree.nodes ks (leaves .r_ascii p s.length) → Cut ⟨e.src⟩ p q s →
    stringTerminalData e ks = .ok (s.map (·.toNat)) := by
  induction s with
  | nil => intro ks p q h _; have := UnfL.inv_nil h; subst this; rfl
  | cons c s ih =>
    intro ks p q h hc
    obtain ⟨k, ks', rfl, a1, h⟩ := UnfL.inv_cons h
    obtain ⟨nd, g1, g2, _, g4, g5, _⟩ := At.inv a1
    have hs : Source.byteSlice e.src p (p + 1) = .ok [c] := Cut.byteSlice (src := ⟨e.src⟩) hc.uncons.1
    simp [stringTerminalData, g1, g2, g4, g5, hs, ih h hc.uncons.2]

theorem string_spec {s : DStr} (hs : s.WF) (h : At e.tree i (s.tree p)) (hc : Cut ⟨e.src⟩ p (p + s.text.length) s.text)
    (hn : Source.isCharBoundary e.src (p + s.text.length) = true) :
    stringTerminal e a i = ((DCore.str s).comp e.ctx a.1.length) >>= fin a := by
  have fin_eq : ∀ data : List Nat, (Out.ok (strPiece a.1.length data) >>= fin a) =
      .ok ((a.1.push (if (data.all (· < 128)) = true then Reference.stringTerminalAsciiOpt data else .stringTerminal data) none none).1,
        (a.1.push (if (data.all (· < 128)) = true then Reference.stringTerminalAsciiOpt data else .stringTerminal data) none none).2, a.2) := by
    intro data
    unfold strPiece
    split <;> simp [fin, leafP, Piece.key, BTree.push]
  cases s with
  | quoted t =>
    obtain ⟨nd, h1, h2, h3, rfl, h5, h6⟩ := At.inv h
    have hc : Cut ⟨e.src⟩ nd.start (nd.start + (DStr.quoted t).text.length) (34 :: (t ++ [34])) := hc
    simp only [stringTerminal, h1, Out.bind_ok, stringData_quoted h6 hc.uncons.2.split.1, DCore.comp, DStr.data, fin_eq]
  | int ds =>
    obtain ⟨nd, h1, h2, h3, rfl, h5, h6⟩ := At.inv h
    obtain ⟨k, ks', hk, a1, h6⟩ := UnfL.inv_cons h6
    have := UnfL.inv_nil h6
    subst this
    obtain ⟨nd', g1, g2, _, g4, g5, _⟩ := At.inv a1
    simp [stringTerminal, h1, hk, stringTerminalData, g1, g2, DCore.comp, DStr.data]
  | hex ds =>
    obtain ⟨nd, h1, h2, h3, rfl, h5, h6⟩ := At.inv h
    obtain ⟨k, ks', hk, a1, h6⟩ := UnfL.inv_cons h6
    have := UnfL.inv_nil h6
    subst this
    obtain ⟨nd', g1, g2, _, g4, g5, _⟩ := At.inv a1
    have hc' : Cut ⟨e.src⟩ nd.start (nd.start + (ds.length + 2)) (48 :: 120 :: ds) := by
      simpa [DStr.text, hexText] using hc
    have hd : ∃ d ds', ds = d :: ds' ∧ d.toNat / 64 ≠ 2 := by
      obtain ⟨h1, h2⟩ : IsHex ds := hs
      cases ds with
      | nil => exact absurd rfl h1
      | cons d ds =>
        refine ⟨d, ds, rfl, ?_⟩
        have := h2 d (by simp)
        unfold IsHexDigit at this
        omega
    have hs : Source.strSlice e.src (nd.start + 2) (nd.start + 2 + ds.length) = .ok ds := by
      have hcc := hc'.uncons.2.uncons.2
      rw [show nd.start + (ds.length + 2) = nd.start + 2 + ds.length by omega] at hcc
      refine Cut.strSlice (src := ⟨e.src⟩) hcc ?_ ?_
      · obtain ⟨d, ds', rfl, hd⟩ := hd
        exact boundary_of hcc.get hd
      · rw [show nd.start + 2 + ds.length = nd.start + (DStr.hex ds).text.length by
          simp [DStr.text, hexText]; omega]
        exact hn
    simp only [stringTerminal, h1, Out.bind_ok, hk, stringTerminalData, g1, g2, g4, g5, reduceCtorEq, if_false, if_true, hs,
      DCore.comp, DStr.data]
    cases fromHex ds with
    | none => rfl
    | some v =>
      simp only
      cases charFromU32 v with
      | none => rfl
      | some c => simp only [Out.ofOption_some, Out.bind_ok, fin_eq]

end
end PP.Gen
