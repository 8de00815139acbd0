import Verif.Spec.Link
import Verif.Lemmas.Gen.Output

/-! # The hooks a piece of code imports are those written -/
namespace PP.Gen
variable {c : Ctx}

mutual
theorem rhs_hooks : ∀ {r : DRhs} {L P}, r.comp c L = .ok P → P.hooks = r.hooks
  | .atom w a, L, P, h => by unfold DRhs.comp at h; unfold DRhs.hooks; exact atom_hooks h
  | .chain o w a as, L, P, h => by
    unfold DRhs.comp at h; unfold DRhs.hooks
    obtain ⟨Q, h1, h2⟩ := Out.bind_eq_ok.mp h
    rw [atoms_hooks h2, atom_hooks h1]
theorem atoms_hooks : ∀ {as : DAtoms} {o L Q P}, as.comp c o L Q = .ok P → P.hooks = Q.hooks ++ as.hooks
  | .one w a, o, L, Q, P, h => by
    unfold DAtoms.comp at h; unfold DAtoms.hooks
    obtain ⟨T, h1, h2⟩ := Out.bind_eq_ok.mp h
    injection h2 with h2
    rw [← h2, ← atom_hooks h1]; rfl
  | .cons w a as, o, L, Q, P, h => by
    unfold DAtoms.comp at h; unfold DAtoms.hooks
    obtain ⟨T, h1, h2⟩ := Out.bind_eq_ok.mp h
    rw [atoms_hooks h2, ← List.append_assoc, ← atom_hooks h1]; rfl
theorem atom_hooks : ∀ {a : DAtom} {L P}, a.comp c L = .ok P → P.hooks = a.hooks
  | .plain n, L, P, h => by unfold DAtom.comp at h; unfold DAtom.hooks; exact nuc_hooks h
  | .pre o n, L, P, h => by
    unfold DAtom.comp at h; unfold DAtom.hooks
    obtain ⟨T, h1, h2⟩ := Out.bind_eq_ok.mp h
    injection h2 with h2
    rw [← h2, ← nuc_hooks h1]; rfl
  | .post o n w, L, P, h => by
    unfold DAtom.comp at h; unfold DAtom.hooks
    obtain ⟨T, h1, h2⟩ := Out.bind_eq_ok.mp h
    injection h2 with h2
    rw [← h2, ← nuc_hooks h1]; rfl
theorem nuc_hooks : ∀ {n : DNuc} {L P}, n.comp c L = .ok P → P.hooks = n.hooks
  | .mk k w, L, P, h => by unfold DNuc.comp at h; unfold DNuc.hooks; exact core_hooks h
theorem core_hooks : ∀ {k : DCore} {L P}, k.comp c L = .ok P → P.hooks = k.hooks
  | .range a b lo hi w, L, P, h => by
    unfold DCore.comp at h; unfold DCore.hooks
    obtain ⟨_, h1, h2⟩ := Out.bind_eq_ok.mp h
    obtain ⟨_, h3, h4⟩ := Out.bind_eq_ok.mp h2
    injection h4 with h4
    rw [← h4]; rfl
  | .hook name r, L, P, h => by
    unfold DCore.comp at h; unfold DCore.hooks
    obtain ⟨T, h1, h2⟩ := Out.bind_eq_ok.mp h
    injection h2 with h2
    rw [← h2, ← rhs_hooks h1]; rfl
  | .sub r, L, P, h => by
    unfold DCore.comp at h; unfold DCore.hooks
    obtain ⟨T, h1, h2⟩ := Out.bind_eq_ok.mp h
    injection h2 with h2
    rw [← h2, ← rhs_hooks h1]; rfl
  | .term (.chr b), L, P, h => by
    unfold DCore.comp at h; unfold DCore.hooks
    split at h
    · cases h
    · injection h with h; rw [← h]; rfl
  | .term (.esc b), L, P, h => by
    unfold DCore.comp at h; unfold DCore.hooks
    injection h with h; rw [← h]; rfl
  | .term .eps, L, P, h => by
    unfold DCore.comp at h; unfold DCore.hooks
    injection h with h; rw [← h]
  | .str s, L, P, h => by
    unfold DCore.comp at h; unfold DCore.hooks
    obtain ⟨T, h1, h2⟩ := Out.bind_eq_ok.mp h
    injection h2 with h2
    rw [← h2]
    unfold strPiece
    split <;> rfl
  | .ref name, L, P, h => by
    unfold DCore.comp at h; unfold DCore.hooks
    split at h
    · injection h with h; rw [← h]; rfl
    · split at h
      · injection h with h; rw [← h]; rfl
      · injection h with h; rw [← h]; rfl
end

theorem strip_hooks {r : DRhs} : r.strip.hooks = r.hooks := by
  cases r <;> simp only [DRhs.strip, DRhs.hooks]

theorem codes_hooks {g : List DRule} {ks hs} (h : Codes c g ks hs) : hs = (g.map fun r => r.rhs.hooks).flatten := by
  induction h with
  | nil => rfl
  | cons h _ ih =>
    obtain ⟨P, h1, _, h2⟩ := h.lines
    rw [h2, rhs_hooks h1, strip_hooks, ih]
    rfl

end PP.Gen
