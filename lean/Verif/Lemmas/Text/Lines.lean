import Verif.Lemmas.Text.Sim
import Verif.Lemmas.Gen.Hooks

/-! # The lines of a function and the names written in its rule -/
namespace PP.Gen.Text
variable {c : Ctx}

/-- Where a line of a rule with references `rs` and hooked calls `hs` comes from. -/
def Src (c : Ctx) (rs hs : List Bytes) : Line → Prop
  | .exec _ => False
  | .matchRange _ a b => a < 2 ^ 32 ∧ b < 2 ^ 32
  | .hooked _ nm _ => nm ∈ hs
  | .varName _ v f => ∃ nm ∈ rs, c.lr nm = none ∧ c.inl nm = false ∧ v = cap nm ∧ f = lower nm
  | .varNameLR _ v f => ∃ nm ∈ rs, ∃ inv, c.lr nm = some inv ∧ v = cap nm ∧ f = lower nm
  | .involvedSet vs => ∃ nm ∈ rs, ∃ inv, c.lr nm = some inv ∧ vs = sortNames (inv.map cap)
  | .inlined _ f => ∃ nm ∈ rs, c.lr nm = none ∧ c.inl nm = true ∧ f = lower nm
  | _ => True

/-- The lines of a reference. -/
def refLines (c : Ctx) (i : Nat) (nm : Bytes) : List Line :=
  match c.lr nm with
  | some inv => [.involvedSet (sortNames (inv.map cap)), .varNameLR i (cap nm) (lower nm)]
  | none => if c.inl nm then [.inlined i (lower nm)] else [.varName i (cap nm) (lower nm)]

structure Good (c : Ctx) (rs hs : List Bytes) (ls : List Line) : Prop where
  src : ∀ l ∈ ls, Src c rs hs l
  ref : ∀ nm ∈ rs, ∃ i, refLines c i nm <:+: ls
  hook : ∀ nm ∈ hs, ∃ i j, .hooked i nm j ∈ ls

theorem Src.mono {rs rs' hs hs' : List Bytes} {l : Line} (hr : ∀ x ∈ rs, x ∈ rs') (hh : ∀ x ∈ hs, x ∈ hs') (h : Src c rs hs l) :
    Src c rs' hs' l := by
  cases l <;> simp only [Src] at h ⊢ <;> try exact h
  · exact hh _ h
  · obtain ⟨nm, h1, h2⟩ := h; exact ⟨nm, hr _ h1, h2⟩
  · obtain ⟨nm, h1, h2⟩ := h; exact ⟨nm, hr _ h1, h2⟩
  · obtain ⟨nm, h1, h2⟩ := h; exact ⟨nm, hr _ h1, h2⟩
  · obtain ⟨nm, h1, h2⟩ := h; exact ⟨nm, hr _ h1, h2⟩

theorem Good.append {rs rs' hs hs' : List Bytes} {ls ls' : List Line} (h : Good c rs hs ls) (h' : Good c rs' hs' ls') :
    Good c (rs ++ rs') (hs ++ hs') (ls ++ ls') where
  src l hl := by
    rcases List.mem_append.mp hl with hl | hl
    · exact (h.src l hl).mono (fun x hx => by simp [hx]) (fun x hx => by simp [hx])
    · exact (h'.src l hl).mono (fun x hx => by simp [hx]) (fun x hx => by simp [hx])
  ref nm hn := by
    rcases List.mem_append.mp hn with hn | hn
    · obtain ⟨i, hi⟩ := h.ref nm hn
      exact ⟨i, hi.trans (List.prefix_append _ _).isInfix⟩
    · obtain ⟨i, hi⟩ := h'.ref nm hn
      exact ⟨i, hi.trans (List.suffix_append _ _).isInfix⟩
  hook nm hn := by
    rcases List.mem_append.mp hn with hn | hn
    · obtain ⟨i, j, hi⟩ := h.hook nm hn
      exact ⟨i, j, by simp [hi]⟩
    · obtain ⟨i, j, hi⟩ := h'.hook nm hn
      exact ⟨i, j, by simp [hi]⟩

theorem Good.one {l : Line} (h : Src c [] [] l) : Good c [] [] [l] where
  src x hx := by rw [List.mem_singleton] at hx; exact hx ▸ h
  ref nm hn := by cases hn
  hook nm hn := by cases hn

theorem Good.snoc {rs hs : List Bytes} {ls : List Line} {l : Line} (h : Good c rs hs ls) (hl : Src c [] [] l) :
    Good c rs hs (ls ++ [l]) := by
  simpa using h.append (Good.one hl)

theorem src_unary {op : Unary} {i j : Nat} : Src c [] [] (.unary op i j) := trivial
theorem src_binary {op : Binary} {i j k : Nat} : Src c [] [] (.binary op i j k) := trivial

theorem bound_lt {b : DBound} (hb : b.WF) {v : Nat} (h : b.value = .ok v) : v < 2 ^ 32 := by
  cases b with
  | term t =>
    cases t with
    | chr c =>
      simp only [DBound.value] at h
      split at h
      · cases h
      · injection h with h
        have := c.toNat_lt; omega
    | esc c => simp only [DBound.value] at h; injection h with h; omega
    | eps => cases h
  | int ds => cases h
  | hex ds =>
    simp only [DBound.value] at h
    rw [fromHex_eq hb] at h
    by_cases hv : hexValue ds < 4294967296
    · simp only [if_pos hv] at h
      injection h with h; omega
    · simp only [if_neg hv] at h; cases h

mutual
theorem rhs_good : ∀ {r : DRhs} {L P}, r.WF → r.comp c L = .ok P → Good c r.refs r.hooks P.lines
  | .atom w a, L, P, hw, h => by
    unfold DRhs.comp at h; unfold DRhs.refs DRhs.hooks
    unfold DRhs.WF at hw
    exact atom_good hw.2 h
  | .chain o w a as, L, P, hw, h => by
    unfold DRhs.comp at h; unfold DRhs.refs DRhs.hooks
    unfold DRhs.WF at hw
    obtain ⟨Q, h1, h2⟩ := Out.bind_eq_ok.mp h
    exact atoms_good hw.2.2 (atom_good hw.2.1 h1) h2
theorem atoms_good : ∀ {as : DAtoms} {o L Q P rs hs}, as.WF → Good c rs hs Q.lines → as.comp c o L Q = .ok P →
    Good c (rs ++ as.refs) (hs ++ as.hooks) P.lines
  | .one w a, o, L, Q, P, rs, hs, hw, hg, h => by
    unfold DAtoms.comp at h; unfold DAtoms.refs DAtoms.hooks
    unfold DAtoms.WF at hw
    obtain ⟨T, h1, h2⟩ := Out.bind_eq_ok.mp h
    injection h2 with h2
    rw [← h2]
    exact (hg.append (atom_good hw.2 h1)).snoc src_binary
  | .cons w a as, o, L, Q, P, rs, hs, hw, hg, h => by
    unfold DAtoms.comp at h; unfold DAtoms.refs DAtoms.hooks
    unfold DAtoms.WF at hw
    obtain ⟨T, h1, h2⟩ := Out.bind_eq_ok.mp h
    rw [← List.append_assoc, ← List.append_assoc]
    refine atoms_good hw.2.2 ?_ h2
    exact (hg.append (atom_good hw.2.1 h1)).snoc src_binary
theorem atom_good : ∀ {a : DAtom} {L P}, a.WF → a.comp c L = .ok P → Good c a.refs a.hooks P.lines
  | .plain n, L, P, hw, h => by
    unfold DAtom.comp at h; unfold DAtom.refs DAtom.hooks
    unfold DAtom.WF at hw
    exact nuc_good hw.1 h
  | .pre o n, L, P, hw, h => by
    unfold DAtom.comp at h; unfold DAtom.refs DAtom.hooks
    unfold DAtom.WF at hw
    obtain ⟨T, h1, h2⟩ := Out.bind_eq_ok.mp h
    injection h2 with h2
    rw [← h2]
    exact (nuc_good hw h1).snoc src_unary
  | .post o n w, L, P, hw, h => by
    unfold DAtom.comp at h; unfold DAtom.refs DAtom.hooks
    unfold DAtom.WF at hw
    obtain ⟨T, h1, h2⟩ := Out.bind_eq_ok.mp h
    injection h2 with h2
    rw [← h2]
    exact (nuc_good hw.1 h1).snoc src_unary
theorem nuc_good : ∀ {n : DNuc} {L P}, n.WF → n.comp c L = .ok P → Good c n.refs n.hooks P.lines
  | .mk k w, L, P, hw, h => by
    unfold DNuc.comp at h; unfold DNuc.refs DNuc.hooks
    unfold DNuc.WF at hw
    exact core_good hw.1 h
theorem core_good : ∀ {k : DCore} {L P}, k.WF → k.comp c L = .ok P → Good c k.refs k.hooks P.lines
  | .range a b lo hi w, L, P, hw, h => by
    unfold DCore.comp at h; unfold DCore.refs DCore.hooks
    unfold DCore.WF at hw
    obtain ⟨_, h1, h2⟩ := Out.bind_eq_ok.mp h
    obtain ⟨_, h3, h4⟩ := Out.bind_eq_ok.mp h2
    injection h4 with h4
    rw [← h4]
    exact Good.one ⟨bound_lt hw.2.2.1 h1, bound_lt hw.2.2.2.1 h3⟩
  | .hook name r, L, P, hw, h => by
    unfold DCore.comp at h; unfold DCore.refs DCore.hooks
    unfold DCore.WF at hw
    obtain ⟨T, h1, h2⟩ := Out.bind_eq_ok.mp h
    injection h2 with h2
    rw [← h2]
    have h3 := (rhs_good hw.2 h1).snoc (src_unary (op := .sub) (i := L + T.nodes.length) (j := T.key L))
    refine ⟨fun l hl => ?_, fun nm hn => ?_, fun nm hn => ?_⟩
    · simp only [Piece.snoc, List.mem_append, List.mem_singleton] at hl
      rcases hl with hl | rfl
      · exact (h3.src l (by simpa using hl)).mono (fun _ h => h) (fun x hx => by simp [hx])
      · simp [Src]
    · obtain ⟨i, hi⟩ := h3.ref nm hn
      exact ⟨i, hi.trans (List.prefix_append _ _).isInfix⟩
    · rcases List.mem_cons.mp hn with rfl | hn
      · exact ⟨_, _, by simp [Piece.snoc]; right; exact ⟨rfl, rfl⟩⟩
      · obtain ⟨i, j, hi⟩ := h3.hook nm hn
        exact ⟨i, j, List.mem_append.mpr (.inl hi)⟩
  | .sub r, L, P, hw, h => by
    unfold DCore.comp at h; unfold DCore.refs DCore.hooks
    unfold DCore.WF at hw
    obtain ⟨T, h1, h2⟩ := Out.bind_eq_ok.mp h
    injection h2 with h2
    rw [← h2]
    exact (rhs_good hw h1).snoc src_unary
  | .term (.chr b), L, P, hw, h => by
    unfold DCore.comp at h; unfold DCore.refs DCore.hooks
    split at h
    · cases h
    · injection h with h; rw [← h]; exact Good.one trivial
  | .term (.esc b), L, P, hw, h => by
    unfold DCore.comp at h; unfold DCore.refs DCore.hooks
    injection h with h; rw [← h]; exact Good.one trivial
  | .term .eps, L, P, hw, h => by
    unfold DCore.comp at h; unfold DCore.refs DCore.hooks
    injection h with h; rw [← h]
    exact ((Good.one (l := .terminal L [34]) trivial).snoc (l := .terminal (L + 1) [34]) trivial).snoc src_binary
  | .str s, L, P, hw, h => by
    unfold DCore.comp at h; unfold DCore.refs DCore.hooks
    obtain ⟨T, h1, h2⟩ := Out.bind_eq_ok.mp h
    injection h2 with h2
    rw [← h2]
    unfold strPiece
    split <;> exact Good.one trivial
  | .ref name, L, P, hw, h => by
    unfold DCore.comp at h; unfold DCore.refs DCore.hooks
    have e : P.lines = refLines c L name := by
      unfold refLines
      split at h
      · next inv hi => injection h with h; rw [← h, hi]; rfl
      · next hi =>
        rw [hi]
        split at h
        · next hl => injection h with h; rw [← h]; simp [hl, leafP]
        · next hl => injection h with h; rw [← h]; simp [hl, leafP]
    rw [e]
    refine ⟨fun l hl => ?_, fun nm hn => ?_, fun nm hn => by cases hn⟩
    · unfold refLines at hl
      split at hl
      · next inv hi =>
        simp only [List.mem_cons, List.not_mem_nil, or_false] at hl
        rcases hl with rfl | rfl
        · exact ⟨name, by simp, inv, hi, rfl⟩
        · exact ⟨name, by simp, inv, hi, rfl, rfl⟩
      · next hi =>
        split at hl
        · next hl' => rw [List.mem_singleton] at hl; subst hl; exact ⟨name, by simp, hi, hl', rfl⟩
        · next hl' => rw [List.mem_singleton] at hl; subst hl; exact ⟨name, by simp, hi, by simpa using hl', rfl, rfl⟩
    · rw [List.mem_singleton] at hn
      subst hn
      exact ⟨L, List.infix_rfl⟩
end

mutual
theorem rhs_names : ∀ {r : DRhs}, r.WF → (∀ x ∈ r.refs, IsName x) ∧ ∀ x ∈ r.hooks, IsName x
  | .atom w a, hw => by
    unfold DRhs.refs DRhs.hooks; unfold DRhs.WF at hw
    exact atom_names hw.2
  | .chain o w a as, hw => by
    unfold DRhs.refs DRhs.hooks; unfold DRhs.WF at hw
    have h1 := atom_names hw.2.1
    have h2 := atoms_names hw.2.2
    exact ⟨fun x hx => (List.mem_append.mp hx).elim (h1.1 x) (h2.1 x), fun x hx => (List.mem_append.mp hx).elim (h1.2 x) (h2.2 x)⟩
theorem atoms_names : ∀ {r : DAtoms}, r.WF → (∀ x ∈ r.refs, IsName x) ∧ ∀ x ∈ r.hooks, IsName x
  | .one w a, hw => by
    unfold DAtoms.refs DAtoms.hooks; unfold DAtoms.WF at hw
    exact atom_names hw.2
  | .cons w a as, hw => by
    unfold DAtoms.refs DAtoms.hooks; unfold DAtoms.WF at hw
    have h1 := atom_names hw.2.1
    have h2 := atoms_names hw.2.2
    exact ⟨fun x hx => (List.mem_append.mp hx).elim (h1.1 x) (h2.1 x), fun x hx => (List.mem_append.mp hx).elim (h1.2 x) (h2.2 x)⟩
theorem atom_names : ∀ {r : DAtom}, r.WF → (∀ x ∈ r.refs, IsName x) ∧ ∀ x ∈ r.hooks, IsName x
  | .plain n, hw => by
    unfold DAtom.refs DAtom.hooks; unfold DAtom.WF at hw
    exact nuc_names hw.1
  | .pre o n, hw => by
    unfold DAtom.refs DAtom.hooks; unfold DAtom.WF at hw
    exact nuc_names hw
  | .post o n w, hw => by
    unfold DAtom.refs DAtom.hooks; unfold DAtom.WF at hw
    exact nuc_names hw.1
theorem nuc_names : ∀ {r : DNuc}, r.WF → (∀ x ∈ r.refs, IsName x) ∧ ∀ x ∈ r.hooks, IsName x
  | .mk k w, hw => by
    unfold DNuc.refs DNuc.hooks; unfold DNuc.WF at hw
    exact core_names hw.1
theorem core_names : ∀ {r : DCore}, r.WF → (∀ x ∈ r.refs, IsName x) ∧ ∀ x ∈ r.hooks, IsName x
  | .range .., hw => by unfold DCore.refs DCore.hooks; simp
  | .term _, hw => by unfold DCore.refs DCore.hooks; simp
  | .str _, hw => by unfold DCore.refs DCore.hooks; simp
  | .hook name r, hw => by
    unfold DCore.refs DCore.hooks; unfold DCore.WF at hw
    have h := rhs_names hw.2
    refine ⟨h.1, fun x hx => ?_⟩
    rcases List.mem_cons.mp hx with rfl | hx
    · exact hw.1
    · exact h.2 x hx
  | .sub r, hw => by
    unfold DCore.refs DCore.hooks; unfold DCore.WF at hw
    exact rhs_names hw
  | .ref name, hw => by
    unfold DCore.refs DCore.hooks; unfold DCore.WF at hw
    exact ⟨fun x hx => by rw [List.mem_singleton] at hx; exact hx ▸ hw, by simp⟩
end

theorem strip_refs {r : DRhs} : r.strip.refs = r.refs := by
  cases r <;> simp only [DRhs.strip, DRhs.refs]

end PP.Gen.Text
