import Verif.Lemmas.Gen.Emit

/-! # Executing the emitted lines gives the (emitted) meaning -/
namespace PP.Gen

def run (s : Scope) (ls : List Line) : Option Scope := ls.foldlM (fun s l => l.step s) s

theorem run_append {s : Scope} {a b : List Line} : run s (a ++ b) = (run s a).bind fun s => run s b := by
  simp [run, List.foldlM_append]
theorem run_one {s : Scope} {l : Line} : run s [l] = l.step s := by
  simp [run]

theorem execLines_run {s : Scope} {ls : List Line} {k : Nat} :
    execLines s (ls ++ [.exec k]) = (run s ls).bind fun s => s.clo k := by
  induction ls generalizing s with
  | nil => simp [execLines, run]
  | cons l ls ih =>
    have : ∃ x xs, ls ++ [Line.exec k] = x :: xs := by cases ls <;> simp
    obtain ⟨x, xs, hx⟩ := this
    rw [List.cons_append, hx, execLines, ← hx]
    · simp only [run, List.foldlM_cons]
      cases l.step s with
      | none => rfl
      | some s' => exact ih
    · intro i _ h; cases h

/-- Executing a piece. -/
def Runs (L : Nat) (P : Piece) (x : Option (Expr Bytes)) : Prop :=
  ∀ s, match x with
    | none => run s P.lines = none
    | some e => ∃ s', run s P.lines = some s' ∧ s'.clo (P.key L) = some e ∧ ∀ j, j < L → s'.clo j = s.clo j

def Ctx.refs (c : Ctx) : Refs := ⟨c.inl, fun nm => (c.lr nm).map fun inv => (sortNames (inv.map cap)).map lower⟩

theorem set_get {s : Scope} {i e} : (s.set i e).clo i = some e := by simp [Scope.set]
theorem set_lt {s : Scope} {i e j} (h : j < i) : (s.set i e).clo j = s.clo j := by
  simp [Scope.set]; omega

theorem Runs.leaf {L : Nat} {r : Reference} {l : Line} {x : Option (Expr Bytes)} (h : ∀ s, l.step s = x.map (s.set L)) :
    Runs L (leafP r [l]) x := by
  intro s
  have hk : (leafP r [l]).key L = L := by simp [leafP, Piece.key]
  have hr : run s (leafP r [l]).lines = x.map (s.set L) := by simp [leafP, run_one, h]
  cases x with
  | none => exact hr
  | some e => exact ⟨_, hr, by rw [hk]; exact set_get, fun j hj => set_lt hj⟩

theorem Runs.unary {L : Nat} {P : Piece} {x : Option (Expr Bytes)} (_ : Good L P) (h : Runs L P x) {r : Reference} {l : Line}
    {f : Expr Bytes → Expr Bytes}
    (hl : ∀ s, l.step s = (s.clo (P.key L)).map fun e => s.set (L + P.nodes.length) (f e)) :
    Runs L (P.snoc r (some (P.key L)) none l) (x.map f) := by
  intro s
  have hk : (P.snoc r (some (P.key L)) none l).key L = L + P.nodes.length := by simp [Piece.snoc, Piece.key]
  have hr : run s (P.snoc r (some (P.key L)) none l).lines = (run s P.lines).bind fun s => l.step s := by
    simp [Piece.snoc, run_append, run_one]
  have := h s
  cases x with
  | none => rw [Option.map_none]; simp only at this ⊢; rw [hr, this]; rfl
  | some e =>
    obtain ⟨s', h1, h2, h3⟩ := this
    rw [Option.map_some]
    refine ⟨s'.set (L + P.nodes.length) (f e), by rw [hr, h1]; simp [hl, h2], by rw [hk]; exact set_get, fun j hj => ?_⟩
    rw [set_lt (by omega), h3 j hj]

theorem Runs.binary {L : Nat} {P Q : Piece} {x y : Option (Expr Bytes)} (g : Good L P) (_ : Good (L + P.nodes.length) Q)
    (h : Runs L P x) (h' : Runs (L + P.nodes.length) Q y) {o : ChainOp} {hs : List Bytes} :
    Runs L (Piece.snoc ⟨P.nodes ++ Q.nodes, P.lines ++ Q.lines, hs⟩ o.ref (some (P.key L))
      (some (Q.key (L + P.nodes.length))) (.binary o.bin (L + P.nodes.length + Q.nodes.length) (P.key L) (Q.key (L + P.nodes.length))))
      (x.bind fun a => y.bind fun b => some (o.mk a b)) := by
  have hp := g.pos
  intro s
  generalize hW : Piece.snoc ⟨P.nodes ++ Q.nodes, P.lines ++ Q.lines, hs⟩ o.ref (some (P.key L))
      (some (Q.key (L + P.nodes.length))) (.binary o.bin (L + P.nodes.length + Q.nodes.length) (P.key L) (Q.key (L + P.nodes.length))) = W
  have hk : W.key L = L + P.nodes.length + Q.nodes.length := by subst hW; simp [Piece.snoc, Piece.key]; omega
  have hr : run s W.lines = (run s P.lines).bind fun s => (run s Q.lines).bind fun s =>
      (Line.binary o.bin (L + P.nodes.length + Q.nodes.length) (P.key L) (Q.key (L + P.nodes.length))).step s := by
    subst hW
    simp only [Piece.snoc, run_append, run_one, Option.bind_assoc]
  have hx := h s
  cases x with
  | none => simp only [Option.bind_none] at hx ⊢; rw [hr, hx]; rfl
  | some a =>
    obtain ⟨s1, h1, h2, h3⟩ := hx
    have hy := h' s1
    cases y with
    | none => simp only [Option.bind_none, Option.bind_some] at hy ⊢; rw [hr, h1, Option.bind_some, hy]; rfl
    | some b =>
      obtain ⟨s2, k1, k2, k3⟩ := hy
      simp only [Option.bind_some]
      refine ⟨s2.set (L + P.nodes.length + Q.nodes.length) (o.mk a b), ?_, by rw [hk]; exact set_get, fun j hj => ?_⟩
      · rw [hr, h1, Option.bind_some, k1, Option.bind_some]
        have e1 : s2.clo (P.key L) = some a := by rw [k3 _ (by unfold Piece.key; omega), h2]
        simp only [Line.step, e1, k2, Option.bind_eq_bind, Option.bind_some]
        cases o <;> rfl
      · rw [set_lt (by omega), k3 j (by omega), h3 j hj]

/-! ### Hexadecimal literals -/

theorem hexDigit_eq {d : UInt8} (h : IsHexDigit d) :
    hexDigit d = some (if d.toNat ≤ 57 then d.toNat - 48 else d.toNat - 55) := by
  unfold hexDigit
  unfold IsHexDigit at h
  simp only [UInt8.le_iff_toNat_le]
  rcases h with ⟨h1, h2⟩ | ⟨h1, h2⟩
  · rw [if_pos (by simpa using ⟨h1, h2⟩), if_pos h2]
  · rw [if_neg (by simp; omega), if_pos (by simpa using ⟨h1, h2⟩), if_neg (by omega)]

theorem hexfold_none (ds : Bytes) : ds.foldl (fun acc c => acc.bind fun v => (hexDigit c).bind fun d =>
    if v * 16 + d < 4294967296 then some (v * 16 + d) else none) (none : Option Nat) = none := by
  induction ds with
  | nil => rfl
  | cons d ds ih => exact ih

theorem hexfold_ge (ds : Bytes) (v : Nat) : v ≤ ds.foldl (fun v d => v * 16 + (if d.toNat ≤ 57 then d.toNat - 48 else d.toNat - 55)) v := by
  induction ds generalizing v with
  | nil => exact Nat.le_refl _
  | cons d ds ih => exact Nat.le_trans (by show v ≤ v * 16 + _; omega) (ih _)

theorem hexfold_eq {ds : Bytes} (h : ∀ d ∈ ds, IsHexDigit d) (v : Nat) :
    ds.foldl (fun acc c => acc.bind fun v => (hexDigit c).bind fun d =>
      if v * 16 + d < 4294967296 then some (v * 16 + d) else none) (if v < 4294967296 then some v else none) =
    (let w := ds.foldl (fun v d => v * 16 + (if d.toNat ≤ 57 then d.toNat - 48 else d.toNat - 55)) v
     if w < 4294967296 then some w else none) := by
  induction ds generalizing v with
  | nil => rfl
  | cons d ds ih =>
    simp only [List.foldl_cons]
    by_cases hv : v < 4294967296
    · rw [if_pos hv, Option.bind_some, hexDigit_eq (h d (by simp)), Option.bind_some]
      exact ih (fun d hd => h d (by simp [hd])) _
    · rw [if_neg hv]
      simp only [Option.bind_none]
      rw [hexfold_none]
      have := hexfold_ge ds (v * 16 + (if d.toNat ≤ 57 then d.toNat - 48 else d.toNat - 55))
      exact (if_neg (by show ¬ List.foldl _ _ _ < _; omega)).symm

theorem fromHex_eq {ds : Bytes} (h : IsHex ds) : fromHex ds = if hexValue ds < 4294967296 then some (hexValue ds) else none := by
  unfold fromHex hexValue
  rw [if_neg (by simp [h.1])]
  exact hexfold_eq h.2 0

/-! ### Leaves -/

theorem cont_iff {c : UInt8} : IsCont c ↔ c.toNat / 64 = 2 := by unfold IsCont; omega

theorem bound_ok {b : DBound} (hb : b.WF) {v : Nat} (h : b.value = .ok v) : b.emitted = some v := by
  cases b with
  | term t =>
    cases t with
    | chr c => simp only [DBound.value] at h; split at h <;> simp_all [DBound.emitted]
    | esc c => simp_all [DBound.value, DBound.emitted]
    | eps => simp [DBound.value] at h
  | int ds => simp [DBound.value] at h
  | hex ds =>
    simp only [DBound.value] at h
    rw [fromHex_eq hb] at h
    by_cases hv : hexValue ds < 4294967296
    · simp only [if_pos hv] at h; simp at h; simp [DBound.emitted, h]
    · simp only [if_neg hv] at h; cases h

theorem bound_panics {b : DBound} (hb : b.WF) : (∃ v, b.value = .ok v) ↔ ¬ b.Panics := by
  cases b with
  | term t =>
    cases t with
    | chr c => simp only [DBound.value, DBound.Panics, cont_iff]; split <;> simp_all
    | esc c => simp [DBound.value, DBound.Panics]
    | eps => simp [DBound.value, DBound.Panics]
  | int ds => simp [DBound.value, DBound.Panics]
  | hex ds =>
    simp only [DBound.value, DBound.Panics]
    rw [fromHex_eq hb]
    by_cases hv : hexValue ds < 4294967296
    · simp [hv]
    · simp [hv]

theorem str_data {s : DStr} (hs : s.WF) {d : List Nat} (h : s.data = .ok d) : s.emitted = byteStr d := by
  cases s with
  | quoted t => simp [DStr.data] at h; subst h; rfl
  | int ds => simp [DStr.data] at h
  | hex ds =>
    simp only [DStr.data] at h
    rw [fromHex_eq hs] at h
    by_cases hv : hexValue ds < 4294967296
    · simp only [if_pos hv] at h
      unfold charFromU32 at h
      split at h
      · cases h
      · next hc =>
        split at hc
        · simp at hc h; subst hc; subst h; rfl
        · cases hc
    · simp only [if_neg hv] at h; cases h

theorem str_panics {s : DStr} (hs : s.WF) : (∃ v, s.data = .ok v) ↔ ¬ s.Panics := by
  cases s with
  | quoted t => simp [DStr.data, DStr.Panics]
  | int ds => simp [DStr.data, DStr.Panics]
  | hex ds =>
    simp only [DStr.data, DStr.Panics]
    rw [fromHex_eq hs]
    by_cases hv : hexValue ds < 4294967296
    · simp only [if_pos hv]
      unfold charFromU32
      by_cases hc : hexValue ds < 0xD800 ∨ (0xDFFF < hexValue ds ∧ hexValue ds < 0x110000)
      · simp [hc]; omega
      · simp [hc]; omega
    · simp only [if_neg hv]
      simp
      omega

theorem byteStr_ascii : ∀ {d : List Nat} {bs}, byteStr d = some bs → d.all (· < 128) = true
  | [], _, _ => rfl
  | [c], bs, h => by
    unfold byteStr at h
    split at h
    · next hc => simp [hc.1]
    · cases h
  | c :: d :: s, bs, h => by
    unfold byteStr at h
    by_cases hc : c = 92
    · rw [if_pos hc] at h
      by_cases hd : d < 128
      · simp only [if_pos hd] at h
        cases he : escByte (UInt8.ofNat d) with
        | none => simp [he] at h
        | some b =>
          cases hb : byteStr s with
          | none => simp [he, hb] at h
          | some bs' =>
            have := byteStr_ascii hb
            simp only [List.all_cons, this, hd, hc]; decide
      · simp [hd] at h
    · rw [if_neg hc] at h
      split at h
      · next hx =>
        cases hb : byteStr (d :: s) with
        | none => simp [hb] at h
        | some bs' =>
          have := byteStr_ascii hb
          simp only [List.all_cons] at this ⊢
          simp [hx.1, this]
      · cases h

theorem str_runs {L : Nat} {d : List Nat} : Runs L (strPiece L d) ((byteStr d).map .stringTerminal) := by
  unfold strPiece
  split
  · refine .leaf fun s => ?_
    simp only [Line.step]
    cases byteStr d <;> rfl
  · next hd =>
    have : byteStr d = none := by
      cases hb : byteStr d with
      | none => rfl
      | some bs => exact absurd (byteStr_ascii hb) hd
    rw [this]
    exact .leaf fun s => rfl

theorem chr_lit {c : UInt8} : byteLit (chrContent c) = if c < 128 ∧ c ≠ 10 ∧ c ≠ 13 ∧ c ≠ 9 then some c else none := by
  unfold chrContent
  by_cases h1 : c = 92
  · subst h1; decide
  · by_cases h2 : c = 39
    · subst h2; decide
    · simp [h1, h2, byteLit]

theorem esc_lit {c : UInt8} (h : c = 110 ∨ c = 114 ∨ c = 116) : byteLit [92, c] = some (escMeaning c) := by
  rcases h with rfl | rfl | rfl <;> decide

/-! ### The recursion -/

mutual
theorem rhs_runs {c : Ctx} (hc : c.Named) : ∀ {r : DRhs} {L : Nat} {P : Piece}, r.WF → r.comp c L = .ok P →
    Runs L P (r.meaning emitted c.refs)
  | .atom w x, L, P, hr, h => by
    unfold DRhs.comp at h; unfold DRhs.WF at hr; unfold DRhs.meaning
    exact atom_runs hc hr.2 h
  | .chain o w x xs, L, P, hr, h => by
    unfold DRhs.comp at h; unfold DRhs.WF at hr; unfold DRhs.meaning
    obtain ⟨Q, h1, h2⟩ := Out.bind_eq_ok.mp h
    exact atoms_runs hc hr.2.2 (atom_good hc hr.2.1 h1) (atom_runs hc hr.2.1 h1) h2
theorem atoms_runs {c : Ctx} (hc : c.Named) : ∀ {as : DAtoms} {o : ChainOp} {L : Nat} {P Q : Piece} {y : Option (Expr Bytes)}, as.WF → Good L Q →
    Runs L Q y → as.comp c o L Q = .ok P → Runs L P (y >>= fun y => as.meaning emitted c.refs o y)
  | .one w x, o, L, P, Q, y, hr, hq, hy, h => by
    unfold DAtoms.comp at h; unfold DAtoms.WF at hr; unfold DAtoms.meaning
    obtain ⟨R, h1, h2⟩ := Out.bind_eq_ok.mp h
    injection h2 with h2; subst h2
    exact hy.binary hq (atom_good hc hr.2 h1) (atom_runs hc hr.2 h1)
  | .cons w x xs, o, L, P, Q, y, hr, hq, hy, h => by
    unfold DAtoms.comp at h; unfold DAtoms.WF at hr; unfold DAtoms.meaning
    obtain ⟨R, h1, h2⟩ := Out.bind_eq_ok.mp h
    have g := hq.binary (atom_good hc hr.2.1 h1) (o := o) (hs := Q.hooks ++ R.hooks)
    have r := hy.binary hq (atom_good hc hr.2.1 h1) (atom_runs hc hr.2.1 h1) (o := o) (hs := Q.hooks ++ R.hooks)
    have := atoms_runs hc hr.2.2 g r h2
    cases y with
    | none => exact this
    | some y => cases hx : x.meaning emitted c.refs with
      | none => simp only [hx] at this ⊢; exact this
      | some z => simp only [hx] at this ⊢; exact this
theorem atom_runs {c : Ctx} (hc : c.Named) : ∀ {x : DAtom} {L : Nat} {P : Piece}, x.WF → x.comp c L = .ok P →
    Runs L P (x.meaning emitted c.refs)
  | .plain m, L, P, hr, h => by
    unfold DAtom.comp at h; unfold DAtom.WF at hr; unfold DAtom.meaning
    exact nuc_runs hc hr.1 h
  | .pre o m, L, P, hr, h => by
    unfold DAtom.comp at h; unfold DAtom.WF at hr; unfold DAtom.meaning
    obtain ⟨R, h1, h2⟩ := Out.bind_eq_ok.mp h
    injection h2 with h2; subst h2
    have := (nuc_runs hc hr h1).unary (nuc_good hc hr h1) (r := o.ref) (l := .unary o.un (L + R.nodes.length) (R.key L)) (f := o.mk)
      (fun s => by cases o <;> simp [Line.step, PreOp.un, Unary.mk, PreOp.mk] <;> cases s.clo (R.key L) <;> rfl)
    cases hm : m.meaning emitted c.refs <;> simpa [hm] using this
  | .post o m w, L, P, hr, h => by
    unfold DAtom.comp at h; unfold DAtom.WF at hr; unfold DAtom.meaning
    obtain ⟨R, h1, h2⟩ := Out.bind_eq_ok.mp h
    injection h2 with h2; subst h2
    have := (nuc_runs hc hr.1 h1).unary (nuc_good hc hr.1 h1) (r := o.ref) (l := .unary o.un (L + R.nodes.length) (R.key L)) (f := o.mk)
      (fun s => by cases o <;> simp [Line.step, PostOp.un, Unary.mk, PostOp.mk] <;> cases s.clo (R.key L) <;> rfl)
    cases hm : m.meaning emitted c.refs <;> simpa [hm] using this
theorem nuc_runs {c : Ctx} (hc : c.Named) : ∀ {x : DNuc} {L : Nat} {P : Piece}, x.WF → x.comp c L = .ok P →
    Runs L P (x.meaning emitted c.refs)
  | .mk k w, L, P, hr, h => by
    unfold DNuc.comp at h; unfold DNuc.WF at hr; unfold DNuc.meaning
    exact core_runs hc hr.1 h
theorem core_runs {c : Ctx} (hc : c.Named) : ∀ {x : DCore} {L : Nat} {P : Piece}, x.WF → x.comp c L = .ok P →
    Runs L P (x.meaning emitted c.refs)
  | .range w0 w1 lo hi w2, L, P, hr, h => by
    unfold DCore.comp at h; unfold DCore.WF at hr; unfold DCore.meaning
    obtain ⟨s, h1, h2⟩ := Out.bind_eq_ok.mp h
    obtain ⟨e, h3, h4⟩ := Out.bind_eq_ok.mp h2
    injection h4 with h4; subst h4
    simp only [emitted, bound_ok hr.2.2.1 h1, bound_ok hr.2.2.2.1 h3, Option.bind_eq_bind, Option.bind_some]
    exact .leaf fun s => rfl
  | .hook nm r, L, P, hr, h => by
    unfold DCore.comp at h; unfold DCore.WF at hr; unfold DCore.meaning
    obtain ⟨R, h1, h2⟩ := Out.bind_eq_ok.mp h
    have g := (rhs_good hc hr.2 h1).unary (op := .sub) (r := .subexpression) (by simp)
    have e := (rhs_runs hc hr.2 h1).unary (rhs_good hc hr.2 h1) (r := .subexpression) (l := .unary .sub (L + R.nodes.length) (R.key L)) (f := .subexpression)
      (fun s => by simp [Line.step, Unary.mk]; cases s.clo (R.key L) <;> rfl)
    have e' := e.unary g (r := .hookedCall nm) (l := .hooked (L + (R.snoc .subexpression (some (R.key L)) none (.unary .sub (L + R.nodes.length) (R.key L))).nodes.length) nm
        ((R.snoc .subexpression (some (R.key L)) none (.unary .sub (L + R.nodes.length) (R.key L))).key L)) (f := .hooked (asStr nm))
      (fun s => by simp only [Line.step]; cases s.clo _ <;> rfl)
    injection h2 with h2; subst h2
    cases hm : r.meaning emitted c.refs with
    | none => intro s; simp only [hm] at e'; exact e' s
    | some z => intro s; simp only [hm] at e'; exact e' s
  | .sub r, L, P, hr, h => by
    unfold DCore.comp at h; unfold DCore.WF at hr; unfold DCore.meaning
    obtain ⟨R, h1, h2⟩ := Out.bind_eq_ok.mp h
    injection h2 with h2; subst h2
    have e := (rhs_runs hc hr h1).unary (rhs_good hc hr h1) (r := .subexpression) (l := .unary .sub (L + R.nodes.length) (R.key L)) (f := .subexpression)
      (fun s => by simp [Line.step, Unary.mk]; cases s.clo (R.key L) <;> rfl)
    cases hm : r.meaning emitted c.refs <;> simpa [hm] using e
  | .term (.chr b), L, P, hr, h => by
    unfold DCore.comp at h; unfold DCore.meaning
    split at h
    · cases h
    · injection h with h; subst h
      refine .leaf fun s => ?_
      simp only [Line.step, chr_lit, emitted, DTerm.emitted]
      split <;> rfl
  | .term (.esc b), L, P, hr, h => by
    unfold DCore.comp at h; unfold DCore.meaning; unfold DCore.WF at hr
    injection h with h; subst h
    refine .leaf fun s => ?_
    simp only [Line.step, esc_lit hr, emitted, DTerm.emitted]
    rfl
  | .term .eps, L, P, hr, h => by
    unfold DCore.comp at h; unfold DCore.meaning
    injection h with h; subst h
    have g : Good L (leafP (.terminal [34]) [.terminal L [34]]) :=
      .leaf rfl rfl (by simp [Paired]) fun t ht n => by simp [matchRef, ht]
    have g' : Good (L + 1) (leafP (.terminal [34]) [.terminal (L + 1) [34]]) :=
      .leaf rfl rfl (by simp [Paired]) fun t ht n => by simp [matchRef, ht]
    have r : Runs L (leafP (.terminal [34]) [.terminal L [34]]) (some (.terminal 34)) := .leaf fun s => rfl
    have r' : Runs (L + 1) (leafP (.terminal [34]) [.terminal (L + 1) [34]]) (some (.terminal 34)) := .leaf fun s => rfl
    have := r.binary g g' r' (o := .seq) (hs := [])
    simpa [leafP, Piece.snoc, Piece.key, ChainOp.ref, ChainOp.bin, ChainOp.mk, emitted, DTerm.emitted] using this
  | .str s, L, P, hr, h => by
    unfold DCore.comp at h; unfold DCore.meaning; unfold DCore.WF at hr
    obtain ⟨d, h1, h2⟩ := Out.bind_eq_ok.mp h
    injection h2 with h2; subst h2
    have := str_runs (L := L) (d := d)
    simp only [emitted, str_data hr h1]
    cases hb : byteStr d <;> simpa [hb] using this
  | .ref nm, L, P, hr, h => by
    unfold DCore.comp at h; unfold DCore.meaning; unfold DCore.WF at hr
    unfold Refs.expr
    have e1 : c.refs.leftRec nm = (c.lr nm).map fun inv => (sortNames (inv.map cap)).map lower := rfl
    have e2 : c.refs.inline nm = c.inl nm := rfl
    rw [e1, e2]
    cases hl : c.lr nm with
    | some inv =>
      simp only [hl] at h
      injection h with h; subst h
      intro s
      refine ⟨_, by simp only [leafP, run, List.foldlM_cons, List.foldlM_nil, Line.step, Option.bind_eq_bind, Option.bind_some, lower_cap, if_true]; rfl, ?_, ?_⟩
      · simp [leafP, Piece.key, Scope.set]
      · intro j hj; exact set_lt hj
    | none =>
      simp only [hl] at h
      split at h
      · next hi =>
        injection h with h; subst h
        simp only [hi, if_true]
        exact .leaf fun s => rfl
      · next hi =>
        injection h with h; subst h
        simp only [hi]
        exact .leaf fun s => by simp [Line.step, lower_cap]
end

/-- Executing the lines of an expression, then calling its closure, gives the emitted meaning. -/
theorem exec_comp {c : Ctx} (hc : c.Named) {r : DRhs} {L : Nat} {P : Piece} (hr : r.WF) (h : r.comp c L = .ok P) (s : Scope) :
    execLines s (P.lines ++ [.exec (P.key L)]) = r.meaning emitted c.refs := by
  rw [execLines_run]
  have := rhs_runs hc hr h s
  cases hm : r.meaning emitted c.refs with
  | none => simp only [hm] at this; rw [this]; rfl
  | some x =>
    simp only [hm] at this
    obtain ⟨s', h1, h2, _⟩ := this
    rw [h1]; exact h2

/-! ### Panics -/
mutual
theorem rhs_panics {c : Ctx} : ∀ {r : DRhs} {L : Nat}, r.WF → ((∃ P, r.comp c L = .ok P) ↔ ¬ r.Panics)
  | .atom w x, L, hr => by
    unfold DRhs.comp DRhs.Panics; unfold DRhs.WF at hr
    exact atom_panics hr.2
  | .chain o w x xs, L, hr => by
    unfold DRhs.comp DRhs.Panics; unfold DRhs.WF at hr
    have h1 := atom_panics (c := c) (L := L) hr.2.1
    have h2 := fun P => atoms_panics (c := c) (L := L) (o := o) (Q := P) hr.2.2
    cases hx : x.comp c L with
    | ok P => simp only [hx] at h1; simp only [Out.bind_ok]; rw [h2 P]; simp at h1; simp [h1]
    | oof => simp [hx] at h1; simp [h1]
    | panic => simp [hx] at h1; simp [h1]
theorem atoms_panics {c : Ctx} : ∀ {as : DAtoms} {o : ChainOp} {L : Nat} {Q : Piece}, as.WF →
    ((∃ P, as.comp c o L Q = .ok P) ↔ ¬ as.Panics)
  | .one w x, o, L, Q, hr => by
    unfold DAtoms.comp DAtoms.Panics; unfold DAtoms.WF at hr
    have h1 := atom_panics (c := c) (L := L + Q.nodes.length) hr.2
    cases hx : x.comp c (L + Q.nodes.length) with
    | ok P => simp [hx] at h1; simp [h1]
    | oof => simp [hx] at h1; simp [h1]
    | panic => simp [hx] at h1; simp [h1]
  | .cons w x xs, o, L, Q, hr => by
    unfold DAtoms.comp DAtoms.Panics; unfold DAtoms.WF at hr
    have h1 := atom_panics (c := c) (L := L + Q.nodes.length) hr.2.1
    have h2 := fun P => atoms_panics (c := c) (L := L) (o := o) (Q := P) hr.2.2
    cases hx : x.comp c (L + Q.nodes.length) with
    | ok P => simp only [hx] at h1; simp only [Out.bind_ok]; rw [h2]; simp at h1; simp [h1]
    | oof => simp [hx] at h1; simp [h1]
    | panic => simp [hx] at h1; simp [h1]
theorem atom_panics {c : Ctx} : ∀ {x : DAtom} {L : Nat}, x.WF → ((∃ P, x.comp c L = .ok P) ↔ ¬ x.Panics)
  | .plain m, L, hr => by
    unfold DAtom.comp DAtom.Panics; unfold DAtom.WF at hr
    exact nuc_panics hr.1
  | .pre o m, L, hr => by
    unfold DAtom.comp DAtom.Panics; unfold DAtom.WF at hr
    have h1 := nuc_panics (c := c) (L := L) hr
    cases hx : m.comp c L with
    | ok P => simp [hx] at h1; simp [h1]
    | oof => simp [hx] at h1; simp [h1]
    | panic => simp [hx] at h1; simp [h1]
  | .post o m w, L, hr => by
    unfold DAtom.comp DAtom.Panics; unfold DAtom.WF at hr
    have h1 := nuc_panics (c := c) (L := L) hr.1
    cases hx : m.comp c L with
    | ok P => simp [hx] at h1; simp [h1]
    | oof => simp [hx] at h1; simp [h1]
    | panic => simp [hx] at h1; simp [h1]
theorem nuc_panics {c : Ctx} : ∀ {x : DNuc} {L : Nat}, x.WF → ((∃ P, x.comp c L = .ok P) ↔ ¬ x.Panics)
  | .mk k w, L, hr => by
    unfold DNuc.comp DNuc.Panics; unfold DNuc.WF at hr
    exact core_panics hr.1
theorem core_panics {c : Ctx} : ∀ {x : DCore} {L : Nat}, x.WF → ((∃ P, x.comp c L = .ok P) ↔ ¬ x.Panics)
  | .range w0 w1 lo hi w2, L, hr => by
    unfold DCore.comp DCore.Panics; unfold DCore.WF at hr
    have h1 := bound_panics hr.2.2.1
    have h2 := bound_panics hr.2.2.2.1
    cases hx : lo.value with
    | oof => simp [hx] at h1; simp [h1]
    | panic => simp [hx] at h1; simp [h1]
    | ok v => cases hy : hi.value with
      | oof => simp [hy] at h2; simp [h2]
      | panic => simp [hy] at h2; simp [h2]
      | ok v => simp [hx] at h1; simp [hy] at h2; simp [h1, h2]
  | .hook nm r, L, hr => by
    unfold DCore.comp DCore.Panics; unfold DCore.WF at hr
    have h1 := rhs_panics (c := c) (L := L) hr.2
    cases hx : r.comp c L with
    | ok P => simp [hx] at h1; simp [h1]
    | oof => simp [hx] at h1; simp [h1]
    | panic => simp [hx] at h1; simp [h1]
  | .sub r, L, hr => by
    unfold DCore.comp DCore.Panics; unfold DCore.WF at hr
    have h1 := rhs_panics (c := c) (L := L) hr
    cases hx : r.comp c L with
    | ok P => simp [hx] at h1; simp [h1]
    | oof => simp [hx] at h1; simp [h1]
    | panic => simp [hx] at h1; simp [h1]
  | .term (.chr b), L, hr => by
    unfold DCore.comp DCore.Panics; rw [cont_iff]
    split <;> simp_all
  | .term (.esc b), L, hr => by unfold DCore.comp DCore.Panics; simp
  | .term .eps, L, hr => by unfold DCore.comp DCore.Panics; simp
  | .str s, L, hr => by
    unfold DCore.comp DCore.Panics; unfold DCore.WF at hr
    have h1 := str_panics hr
    cases hx : s.data with
    | ok P => simp [hx] at h1; simp [h1]
    | oof => simp [hx] at h1; simp [h1]
    | panic => simp [hx] at h1; simp [h1]
  | .ref nm, L, hr => by
    unfold DCore.comp DCore.Panics
    simp only [not_false_eq_true, iff_true]
    split
    · exact ⟨_, rfl⟩
    · split <;> exact ⟨_, rfl⟩
end

/-! ### Faithful expressions -/

theorem byteStr_plain {s : List Nat} (h : ∀ c ∈ s, c < 128 ∧ c ≠ 34 ∧ c ≠ 92 ∧ c ≠ 13) : byteStr s = some (s.map UInt8.ofNat) := by
  induction s with
  | nil => rfl
  | cons c s ih =>
    have hc := h c (by simp)
    have ih := ih fun d hd => h d (by simp [hd])
    cases s with
    | nil => simp [byteStr, hc]
    | cons d s => simp [byteStr, hc, ih]

theorem ofNat_toNat_map (s : Bytes) : (s.map (·.toNat)).map UInt8.ofNat = s := by
  induction s with
  | nil => rfl
  | cons c s ih => simp at ih ⊢; exact ih

mutual
theorem rhs_faithful {c : Refs} : ∀ {r : DRhs}, r.WF → r.Faithful → r.meaning emitted c = r.meaning written c ∧ (∃ x, r.meaning written c = some x) ∧ ¬ r.Panics
  | .atom w x, hr, hf => by
    unfold DRhs.meaning DRhs.Panics; unfold DRhs.WF at hr; unfold DRhs.Faithful at hf
    exact atom_faithful hr.2 hf
  | .chain o w x xs, hr, hf => by
    unfold DRhs.meaning DRhs.Panics; unfold DRhs.WF at hr; unfold DRhs.Faithful at hf
    obtain ⟨h1, ⟨y, h2⟩, h3⟩ := atom_faithful (c := c) hr.2.1 hf.1
    rw [h1, h2]
    obtain ⟨k1, k2, k3⟩ := atoms_faithful (c := c) hr.2.2 hf.2 o y
    exact ⟨k1, k2, by simp [h3, k3]⟩
theorem atoms_faithful {c : Refs} : ∀ {r : DAtoms}, r.WF → r.Faithful → ∀ o y, r.meaning emitted c o y = r.meaning written c o y ∧ (∃ x, r.meaning written c o y = some x) ∧ ¬ r.Panics
  | .one w x, hr, hf, o, y => by
    unfold DAtoms.meaning DAtoms.Panics; unfold DAtoms.WF at hr; unfold DAtoms.Faithful at hf
    obtain ⟨h1, ⟨z, h2⟩, h3⟩ := atom_faithful (c := c) hr.2 hf
    rw [h1, h2]
    exact ⟨rfl, ⟨_, rfl⟩, h3⟩
  | .cons w x xs, hr, hf, o, y => by
    unfold DAtoms.meaning DAtoms.Panics; unfold DAtoms.WF at hr; unfold DAtoms.Faithful at hf
    obtain ⟨h1, ⟨z, h2⟩, h3⟩ := atom_faithful (c := c) hr.2.1 hf.1
    rw [h1, h2]
    obtain ⟨k1, k2, k3⟩ := atoms_faithful (c := c) hr.2.2 hf.2 o (o.mk y z)
    exact ⟨k1, k2, by simp [h3, k3]⟩
theorem atom_faithful {c : Refs} : ∀ {r : DAtom}, r.WF → r.Faithful → r.meaning emitted c = r.meaning written c ∧ (∃ x, r.meaning written c = some x) ∧ ¬ r.Panics
  | .plain m, hr, hf => by
    unfold DAtom.meaning DAtom.Panics; unfold DAtom.WF at hr; unfold DAtom.Faithful at hf
    exact nuc_faithful hr.1 hf
  | .pre o m, hr, hf => by
    unfold DAtom.meaning DAtom.Panics; unfold DAtom.WF at hr; unfold DAtom.Faithful at hf
    obtain ⟨h1, ⟨z, h2⟩, h3⟩ := nuc_faithful (c := c) hr hf
    rw [h1, h2]
    exact ⟨rfl, ⟨_, rfl⟩, h3⟩
  | .post o m w, hr, hf => by
    unfold DAtom.meaning DAtom.Panics; unfold DAtom.WF at hr; unfold DAtom.Faithful at hf
    obtain ⟨h1, ⟨z, h2⟩, h3⟩ := nuc_faithful (c := c) hr.1 hf
    rw [h1, h2]
    exact ⟨rfl, ⟨_, rfl⟩, h3⟩
theorem nuc_faithful {c : Refs} : ∀ {r : DNuc}, r.WF → r.Faithful → r.meaning emitted c = r.meaning written c ∧ (∃ x, r.meaning written c = some x) ∧ ¬ r.Panics
  | .mk k w, hr, hf => by
    unfold DNuc.meaning DNuc.Panics; unfold DNuc.WF at hr; unfold DNuc.Faithful at hf
    exact core_faithful hr.1 hf
theorem core_faithful {c : Refs} : ∀ {r : DCore}, r.WF → r.Faithful → r.meaning emitted c = r.meaning written c ∧ (∃ x, r.meaning written c = some x) ∧ ¬ r.Panics
  | .range w0 w1 lo hi w2, hr, hf => by
    unfold DCore.meaning DCore.Panics; unfold DCore.WF at hr; unfold DCore.Faithful at hf
    have hb : ∀ b : DBound, b.Faithful → b.emitted = b.meaning ∧ (∃ v, b.meaning = some v) ∧ ¬ b.Panics := by
      intro b hb
      match b, hb with
      | .term (.chr c), hb =>
        refine ⟨rfl, ⟨_, rfl⟩, ?_⟩
        have hb : c < 128 := hb
        simp only [DBound.Panics, IsCont]
        rw [UInt8.lt_iff_toNat_lt] at hb
        simp at hb; omega
      | .hex ds, hb => exact ⟨rfl, ⟨_, rfl⟩, by simp [DBound.Faithful] at hb; simp [DBound.Panics]; omega⟩
    obtain ⟨h1, ⟨v1, h2⟩, h3⟩ := hb lo hf.1
    obtain ⟨k1, ⟨v2, k2⟩, k3⟩ := hb hi hf.2
    simp only [emitted, written, h1, k1, h2, k2]
    exact ⟨trivial, ⟨_, rfl⟩, by simp [h3, k3]⟩
  | .hook nm r, hr, hf => by
    unfold DCore.meaning DCore.Panics; unfold DCore.WF at hr; unfold DCore.Faithful at hf
    obtain ⟨h1, ⟨z, h2⟩, h3⟩ := rhs_faithful (c := c) hr.2 hf
    rw [h1, h2]
    exact ⟨rfl, ⟨_, rfl⟩, h3⟩
  | .sub r, hr, hf => by
    unfold DCore.meaning DCore.Panics; unfold DCore.WF at hr; unfold DCore.Faithful at hf
    obtain ⟨h1, ⟨z, h2⟩, h3⟩ := rhs_faithful (c := c) hr hf
    rw [h1, h2]
    exact ⟨rfl, ⟨_, rfl⟩, h3⟩
  | .term (.chr b), hr, hf => by
    unfold DCore.meaning DCore.Panics; unfold DCore.Faithful at hf
    have hf : b < 128 ∧ b ≠ 10 ∧ b ≠ 13 ∧ b ≠ 9 := hf
    refine ⟨?_, ⟨_, rfl⟩, ?_⟩
    · simp only [emitted, written, DTerm.emitted, DTerm.meaning, if_pos hf]
    · have h := hf.1
      rw [UInt8.lt_iff_toNat_lt] at h
      simp only [IsCont]
      simp at h; omega
  | .term (.esc b), hr, hf => by
    unfold DCore.meaning DCore.Panics
    exact ⟨rfl, ⟨_, rfl⟩, not_false⟩
  | .term .eps, hr, hf => by unfold DCore.Faithful at hf; exact absurd hf (by simp [DTerm.Faithful])
  | .str (.quoted s), hr, hf => by
    unfold DCore.meaning DCore.Panics; unfold DCore.WF at hr; unfold DCore.Faithful at hf
    have hf : ∀ c ∈ s, c < 128 ∧ c ≠ 92 ∧ c ≠ 13 := hf
    have hr : 2 ≤ s.length ∧ ∀ c ∈ s, c ≠ 34 := hr
    have : byteStr (s.map (·.toNat)) = some s := by
      rw [byteStr_plain, ofNat_toNat_map]
      intro n hn
      obtain ⟨c, hc, rfl⟩ := List.mem_map.mp hn
      obtain ⟨f1, f2, f3⟩ := hf c hc
      have f4 := hr.2 c hc
      rw [UInt8.lt_iff_toNat_lt] at f1
      refine ⟨by simpa using f1, ?_, ?_, ?_⟩
      · intro e; exact f4 (UInt8.toNat_inj.mp (by simpa using e))
      · intro e; exact f2 (UInt8.toNat_inj.mp (by simpa using e))
      · intro e; exact f3 (UInt8.toNat_inj.mp (by simpa using e))
    simp only [emitted, written, DStr.emitted, DStr.meaning, this]
    exact ⟨trivial, ⟨_, rfl⟩, not_false⟩
  | .str (.hex ds), hr, hf => by
    unfold DCore.meaning DCore.Panics; unfold DCore.Faithful at hf
    have hf : hexValue ds < 128 ∧ hexValue ds ≠ 34 ∧ hexValue ds ≠ 92 ∧ hexValue ds ≠ 13 := hf
    simp only [emitted, written, DStr.emitted, DStr.meaning, codePoint, byteStr, if_pos hf, if_pos hf.1]
    exact ⟨trivial, ⟨_, rfl⟩, by simp only [DStr.Panics]; omega⟩
  | .str (.int ds), hr, hf => by unfold DCore.Faithful at hf; exact absurd hf (by simp [DStr.Faithful])
  | .ref nm, hr, hf => by
    unfold DCore.meaning DCore.Panics
    exact ⟨rfl, ⟨_, rfl⟩, not_false⟩
end

end PP.Gen
