import Verif.Lemmas.Gen.CompAll
import Verif.Spec.Meaning

/-! # The emitted lines: scope and meaning -/
namespace PP.Gen

/-- `involved_set` lines come right before the line that uses them. -/
def Paired : List Line → Prop
  | [] => True
  | .involvedSet _ :: .varNameLR _ _ _ :: ls => Paired ls
  | .involvedSet _ :: _ => False
  | .varNameLR _ _ _ :: _ => False
  | _ :: ls => Paired ls

theorem Paired.append : ∀ {a b : List Line}, Paired a → Paired b → Paired (a ++ b) := by
  intro a b ha hb
  fun_induction Paired a with
  | case1 => exact hb
  | case2 x y z w ls ih => simp only [List.cons_append, Paired]; exact ih ha
  | case3 => exact absurd ha (by simp)
  | case4 => exact absurd ha (by simp)
  | case5 l ls h1 h2 h3 ih =>
    cases l with
    | involvedSet vs => exact absurd rfl (h2 vs)
    | varNameLR i v f => exact absurd rfl (h3 i v f)
    | _ => simp only [List.cons_append, Paired]; exact ih ha

theorem Paired.pre {ls pre post : List Line} {i : Nat} {v f : Bytes} (h : Paired ls) (e : ls = pre ++ .varNameLR i v f :: post) :
    ∃ pre' vs, pre = pre' ++ [.involvedSet vs] := by
  fun_induction Paired ls generalizing pre with
  | case1 => simp at e
  | case2 x y z w ls ih =>
    match pre, e with
    | [], e => simp at e
    | [a], e => simp at e; exact ⟨[], x, by simp [e.1]⟩
    | a :: b :: pre, e =>
      simp at e
      obtain ⟨p, vs, hp⟩ := ih h e.2.2
      exact ⟨a :: b :: p, vs, by simp [hp]⟩
  | case3 => exact absurd h (by simp)
  | case4 => exact absurd h (by simp)
  | case5 l ls h1 h2 h3 ih =>
    match pre, e with
    | [], e => simp at e; exact absurd e.1 (h3 _ _ _)
    | a :: pre, e =>
      simp at e
      obtain ⟨p, vs, hp⟩ := ih h e.2
      exact ⟨a :: p, vs, by simp [hp]⟩

/-- What holds of every piece that starts at `L`. -/
structure Good (L : Nat) (P : Piece) : Prop where
  ne : P.nodes ≠ []
  defs : P.lines.filterMap Line.defines = List.range' L P.nodes.length
  uses : ∀ l ∈ P.lines, ∀ j ∈ l.uses, L ≤ j ∧ ∃ i, l.defines = some i ∧ j < i
  paired : Paired P.lines
  emit : ∀ A B : BTree, A.length = L → Conv (fun n => matchRef (A ++ (P.nodes ++ B)) n (P.key L)) (.ok P.lines)

theorem Good.pos {L P} (h : Good L P) : 0 < P.nodes.length := List.length_pos_iff.mpr h.ne

theorem matchRef_zero {t : BTree} {i : Nat} : matchRef t 0 i = .oof := by unfold matchRef; rfl

theorem get_last {A X B : BTree} {nd : BinaryNode} (n : Nat) (h : n = A.length + X.length) : (A ++ ((X ++ [nd]) ++ B))[n]? = some nd := by
  subst h
  simp

theorem emit_unary {op : Unary} {r : Reference} {t : BTree} {i j : Nat} {rhs} {ls : List Line}
    (hop : (r = .andPredicate ∧ op = .and) ∨ (r = .notPredicate ∧ op = .not) ∨ (r = .optional ∧ op = .opt) ∨
      (r = .oneOrMore ∧ op = .plus) ∨ (r = .zeroOrMore ∧ op = .star) ∨ (r = .subexpression ∧ op = .sub))
    (h : t[i]? = some ⟨r, some j, rhs⟩) (hc : Conv (fun n => matchRef t n j) (.ok ls)) :
    Conv (fun n => matchRef t n i) (.ok (ls ++ [.unary op i j])) := by
  refine Conv.succ matchRef_zero ?_
  have : Conv (fun n => matchRef t n j >>= fun ls => Out.ok (ls ++ [Line.unary op i j])) (.ok (ls ++ [.unary op i j])) :=
    Conv.bind_ok hc (Conv.ok _)
  refine this.congr fun n => ?_
  rcases hop with ⟨rfl, rfl⟩ | ⟨rfl, rfl⟩ | ⟨rfl, rfl⟩ | ⟨rfl, rfl⟩ | ⟨rfl, rfl⟩ | ⟨rfl, rfl⟩ <;>
    simp [matchRef, h, expectKey]

theorem emit_hook {t : BTree} {i j : Nat} {nm : Bytes} {rhs} {ls : List Line}
    (h : t[i]? = some ⟨.hookedCall nm, some j, rhs⟩) (hc : Conv (fun n => matchRef t n j) (.ok ls)) :
    Conv (fun n => matchRef t n i) (.ok (ls ++ [.hooked i nm j])) := by
  refine Conv.succ matchRef_zero ?_
  have : Conv (fun n => matchRef t n j >>= fun ls => Out.ok (ls ++ [Line.hooked i nm j])) (.ok (ls ++ [.hooked i nm j])) :=
    Conv.bind_ok hc (Conv.ok _)
  refine this.congr fun n => ?_
  simp [matchRef, h, expectKey]

theorem emit_binary {o : ChainOp} {t : BTree} {i j k : Nat} {ls ms : List Line}
    (h : t[i]? = some ⟨o.ref, some j, some k⟩) (hc : Conv (fun n => matchRef t n j) (.ok ls))
    (hd : Conv (fun n => matchRef t n k) (.ok ms)) :
    Conv (fun n => matchRef t n i) (.ok (ls ++ ms ++ [.binary o.bin i j k])) := by
  refine Conv.succ matchRef_zero ?_
  have : Conv (fun n => matchRef t n j >>= fun ls => matchRef t n k >>= fun ms => Out.ok (ls ++ ms ++ [Line.binary o.bin i j k]))
      (.ok (ls ++ ms ++ [.binary o.bin i j k])) :=
    Conv.bind_ok hc (Conv.bind_ok hd (Conv.ok _))
  refine this.congr fun n => ?_
  cases o <;> simp [matchRef, h, expectKey, ChainOp.ref, ChainOp.bin]

theorem range'_snoc (L n : Nat) : List.range' L n ++ [L + n] = List.range' L (n + 1) := by
  rw [List.range'_concat]; simp

theorem Good.unary {L : Nat} {P : Piece} (h : Good L P) {op : Unary} {r : Reference}
    (hop : (r = .andPredicate ∧ op = .and) ∨ (r = .notPredicate ∧ op = .not) ∨ (r = .optional ∧ op = .opt) ∨
      (r = .oneOrMore ∧ op = .plus) ∨ (r = .zeroOrMore ∧ op = .star) ∨ (r = .subexpression ∧ op = .sub)) :
    Good L (P.snoc r (some (P.key L)) none (.unary op (L + P.nodes.length) (P.key L))) := by
  have hp := h.pos
  constructor
  · simp [Piece.snoc]
  · simp only [Piece.snoc, List.filterMap_append, h.defs]
    simp [Line.defines, range'_snoc]
  · intro l hl j hj
    simp only [Piece.snoc, List.mem_append, List.mem_singleton] at hl
    rcases hl with hl | rfl
    · exact h.uses l hl j hj
    · simp only [Line.uses, List.mem_singleton] at hj
      subst hj
      exact ⟨by unfold Piece.key; omega, _, rfl, by unfold Piece.key; omega⟩
  · exact h.paired.append (by simp [Paired])
  · intro A B hA
    have hk : (P.snoc r (some (P.key L)) none (.unary op (L + P.nodes.length) (P.key L))).key L = L + P.nodes.length := by
      simp [Piece.snoc, Piece.key]
    rw [hk]
    refine emit_unary hop (rhs := none) (get_last _ (by omega)) ?_
    have := h.emit A (⟨r, some (P.key L), none⟩ :: B) hA
    simpa [Piece.snoc] using this

theorem Good.hook {L : Nat} {P : Piece} (h : Good L P) {nm : Bytes} :
    Good L (P.snoc (.hookedCall nm) (some (P.key L)) none (.hooked (L + P.nodes.length) nm (P.key L))) := by
  have hp := h.pos
  constructor
  · simp [Piece.snoc]
  · simp only [Piece.snoc, List.filterMap_append, h.defs]
    simp [Line.defines, range'_snoc]
  · intro l hl j hj
    simp only [Piece.snoc, List.mem_append, List.mem_singleton] at hl
    rcases hl with hl | rfl
    · exact h.uses l hl j hj
    · simp only [Line.uses, List.mem_singleton] at hj
      subst hj
      exact ⟨by unfold Piece.key; omega, _, rfl, by unfold Piece.key; omega⟩
  · exact h.paired.append (by simp [Paired])
  · intro A B hA
    have hk : (P.snoc (.hookedCall nm) (some (P.key L)) none (.hooked (L + P.nodes.length) nm (P.key L))).key L = L + P.nodes.length := by
      simp [Piece.snoc, Piece.key]
    rw [hk]
    refine emit_hook (rhs := none) (get_last _ (by omega)) ?_
    have := h.emit A (⟨.hookedCall nm, some (P.key L), none⟩ :: B) hA
    simpa [Piece.snoc] using this

theorem Good.binary {L : Nat} {P Q : Piece} (h : Good L P) (h' : Good (L + P.nodes.length) Q) {o : ChainOp} {hs : List Bytes} :
    Good L (Piece.snoc ⟨P.nodes ++ Q.nodes, P.lines ++ Q.lines, hs⟩ o.ref (some (P.key L))
      (some (Q.key (L + P.nodes.length))) (.binary o.bin (L + P.nodes.length + Q.nodes.length) (P.key L) (Q.key (L + P.nodes.length)))) := by
  have hp := h.pos
  have hp' := h'.pos
  constructor
  · simp [Piece.snoc]
  · simp only [Piece.snoc, List.filterMap_append, h.defs, h'.defs]
    simp only [Line.defines, List.filterMap_cons, List.filterMap_nil]
    rw [List.range'_append_1, Nat.add_assoc, range'_snoc]
    simp [Nat.add_assoc]
  · intro l hl j hj
    simp only [Piece.snoc, List.mem_append, List.mem_singleton] at hl
    rcases hl with (hl | hl) | rfl
    · exact h.uses l hl j hj
    · have := h'.uses l hl j hj; exact ⟨by omega, this.2⟩
    · simp only [Line.uses, List.mem_cons, List.not_mem_nil, or_false] at hj
      rcases hj with rfl | rfl
      · exact ⟨by unfold Piece.key; omega, _, rfl, by unfold Piece.key; omega⟩
      · exact ⟨by unfold Piece.key; omega, _, rfl, by unfold Piece.key; omega⟩
  · exact (h.paired.append h'.paired).append (by simp [Paired])
  · intro A B hA
    have hk : (Piece.snoc ⟨P.nodes ++ Q.nodes, P.lines ++ Q.lines, hs⟩ o.ref (some (P.key L))
      (some (Q.key (L + P.nodes.length))) (.binary o.bin (L + P.nodes.length + Q.nodes.length) (P.key L) (Q.key (L + P.nodes.length)))).key L = L + P.nodes.length + Q.nodes.length := by
      simp [Piece.snoc, Piece.key]; omega
    rw [hk]
    refine emit_binary (get_last _ (by simp; omega)) ?_ ?_
    · have := h.emit A (Q.nodes ++ ⟨o.ref, some (P.key L), some (Q.key (L + P.nodes.length))⟩ :: B) hA
      simpa [Piece.snoc] using this
    · have := h'.emit (A ++ P.nodes) (⟨o.ref, some (P.key L), some (Q.key (L + P.nodes.length))⟩ :: B) (by simp [hA])
      simpa [Piece.snoc] using this

theorem Good.leaf {L : Nat} {r : Reference} {l : Line} (hd : l.defines = some L) (hu : l.uses = []) (hp : Paired [l])
    (h : ∀ t : BTree, t[L]? = some ⟨r, none, none⟩ → ∀ n, matchRef t (n + 1) L = .ok [l]) : Good L (leafP r [l]) := by
  constructor
  · simp [leafP]
  · simp [leafP, hd]
  · intro l' hl j hj
    simp [leafP] at hl
    subst hl
    rw [hu] at hj; simp at hj
  · exact hp
  · intro A B hA
    refine Conv.succ matchRef_zero ((Conv.ok _).congr fun n => ?_)
    have : (leafP r [l]).key L = L := by simp [leafP, Piece.key]
    rw [this]
    exact h _ (by subst hA; simp [leafP]) n

/-- The names in the context are not empty. -/
def Ctx.Named (c : Ctx) : Prop := ∀ nm inv, c.lr nm = some inv → ∀ x ∈ inv, x ≠ []

theorem upper_upper (c : UInt8) : upperByte (upperByte c) = upperByte c := by
  unfold upperByte
  split
  · next h =>
    rw [if_neg]
    rintro ⟨h1, h2⟩
    simp only [UInt8.le_iff_toNat_le] at *
    have : (c - 32).toNat = c.toNat - 32 := by
      rw [UInt8.toNat_sub_of_le]
      · rfl
      · simp only [UInt8.le_iff_toNat_le]; simp at *; omega
    simp at *; omega
  · rfl
theorem lower_upper (c : UInt8) : lowerByte (upperByte c) = lowerByte c := by
  unfold upperByte lowerByte
  by_cases h : 97 ≤ c ∧ c ≤ 122
  · have h1 : (c - 32).toNat = c.toNat - 32 := by
      rw [UInt8.toNat_sub_of_le]
      · rfl
      · simp only [UInt8.le_iff_toNat_le] at *; simp at *; omega
    simp only [h, and_self, if_true]
    have hh : 65 ≤ c - 32 ∧ c - 32 ≤ 90 := by
      simp only [UInt8.le_iff_toNat_le] at *; simp at *; omega
    have hn : ¬ (65 ≤ c ∧ c ≤ 90) := by
      simp only [UInt8.le_iff_toNat_le] at *; simp at *; omega
    rw [if_pos hh, if_neg hn]
    simp
  · simp [h]
theorem cap_cap (s : Bytes) : cap (cap s) = cap s := by cases s <;> simp [cap, upper_upper]
theorem cap_ne {s : Bytes} (h : s ≠ []) : cap s ≠ [] := by cases s <;> simp_all [cap]
theorem lower_cap (s : Bytes) : lower (cap s) = lower s := by
  cases s <;> simp [cap, lower, lower_upper]

theorem mem_sortNames {l : List Bytes} {x : Bytes} : x ∈ sortNames l ↔ x ∈ l := by
  unfold sortNames; exact (List.mergeSort_perm l bytesLe).mem_iff

mutual
theorem rhs_good {c : Ctx} (hc : c.Named) : ∀ {r : DRhs} {L : Nat} {P : Piece}, r.WF → r.comp c L = .ok P → Good L P
  | .atom w x, L, P, hr, h => by
    unfold DRhs.comp at h; unfold DRhs.WF at hr
    exact atom_good hc hr.2 h
  | .chain o w x xs, L, P, hr, h => by
    unfold DRhs.comp at h; unfold DRhs.WF at hr
    obtain ⟨Q, h1, h2⟩ := Out.bind_eq_ok.mp h
    exact atoms_good hc hr.2.2 (atom_good hc hr.2.1 h1) h2
theorem atoms_good {c : Ctx} (hc : c.Named) : ∀ {as : DAtoms} {o : ChainOp} {L : Nat} {P Q : Piece}, as.WF → Good L Q →
    as.comp c o L Q = .ok P → Good L P
  | .one w x, o, L, P, Q, hr, hq, h => by
    unfold DAtoms.comp at h; unfold DAtoms.WF at hr
    obtain ⟨R, h1, h2⟩ := Out.bind_eq_ok.mp h
    injection h2 with h2; subst h2
    exact hq.binary (atom_good hc hr.2 h1)
  | .cons w x xs, o, L, P, Q, hr, hq, h => by
    unfold DAtoms.comp at h; unfold DAtoms.WF at hr
    obtain ⟨R, h1, h2⟩ := Out.bind_eq_ok.mp h
    exact atoms_good hc hr.2.2 (hq.binary (atom_good hc hr.2.1 h1)) h2
theorem atom_good {c : Ctx} (hc : c.Named) : ∀ {x : DAtom} {L : Nat} {P : Piece}, x.WF → x.comp c L = .ok P → Good L P
  | .plain m, L, P, hr, h => by
    unfold DAtom.comp at h; unfold DAtom.WF at hr
    exact nuc_good hc hr.1 h
  | .pre o m, L, P, hr, h => by
    unfold DAtom.comp at h; unfold DAtom.WF at hr
    obtain ⟨R, h1, h2⟩ := Out.bind_eq_ok.mp h
    injection h2 with h2; subst h2
    exact (nuc_good hc hr h1).unary (by cases o <;> simp [PreOp.ref, PreOp.un])
  | .post o m w, L, P, hr, h => by
    unfold DAtom.comp at h; unfold DAtom.WF at hr
    obtain ⟨R, h1, h2⟩ := Out.bind_eq_ok.mp h
    injection h2 with h2; subst h2
    exact (nuc_good hc hr.1 h1).unary (by cases o <;> simp [PostOp.ref, PostOp.un])
theorem nuc_good {c : Ctx} (hc : c.Named) : ∀ {x : DNuc} {L : Nat} {P : Piece}, x.WF → x.comp c L = .ok P → Good L P
  | .mk k w, L, P, hr, h => by
    unfold DNuc.comp at h; unfold DNuc.WF at hr
    exact core_good hc hr.1 h
theorem core_good {c : Ctx} (hc : c.Named) : ∀ {x : DCore} {L : Nat} {P : Piece}, x.WF → x.comp c L = .ok P → Good L P
  | .range w0 w1 lo hi w2, L, P, hr, h => by
    unfold DCore.comp at h
    obtain ⟨s, h1, h2⟩ := Out.bind_eq_ok.mp h
    obtain ⟨e, h3, h4⟩ := Out.bind_eq_ok.mp h2
    injection h4 with h4; subst h4
    exact .leaf rfl rfl (by simp [Paired]) fun t ht n => by simp [matchRef, ht]
  | .hook nm r, L, P, hr, h => by
    unfold DCore.comp at h; unfold DCore.WF at hr
    obtain ⟨R, h1, h2⟩ := Out.bind_eq_ok.mp h
    have g := (rhs_good hc hr.2 h1).unary (op := .sub) (r := .subexpression) (by simp)
    have g' := g.hook (nm := nm)
    injection h2 with h2; subst h2
    exact ⟨g'.ne, g'.defs, g'.uses, g'.paired, g'.emit⟩
  | .sub r, L, P, hr, h => by
    unfold DCore.comp at h; unfold DCore.WF at hr
    obtain ⟨R, h1, h2⟩ := Out.bind_eq_ok.mp h
    injection h2 with h2; subst h2
    exact (rhs_good hc hr h1).unary (op := .sub) (r := .subexpression) (by simp)
  | .term (.chr b), L, P, hr, h => by
    unfold DCore.comp at h
    split at h
    · cases h
    · injection h with h; subst h
      exact .leaf rfl rfl (by simp [Paired]) fun t ht n => by simp [matchRef, ht]
  | .term (.esc b), L, P, hr, h => by
    unfold DCore.comp at h
    injection h with h; subst h
    exact .leaf rfl rfl (by simp [Paired]) fun t ht n => by simp [matchRef, ht]
  | .term .eps, L, P, hr, h => by
    unfold DCore.comp at h
    injection h with h; subst h
    have g : Good L (leafP (.terminal [34]) [.terminal L [34]]) :=
      .leaf rfl rfl (by simp [Paired]) fun t ht n => by simp [matchRef, ht]
    have g' : Good (L + 1) (leafP (.terminal [34]) [.terminal (L + 1) [34]]) :=
      .leaf rfl rfl (by simp [Paired]) fun t ht n => by simp [matchRef, ht]
    have := g.binary g' (o := .seq) (hs := [])
    simpa [leafP, Piece.snoc, Piece.key, ChainOp.ref, ChainOp.bin] using this
  | .str s, L, P, hr, h => by
    unfold DCore.comp at h
    obtain ⟨d, h1, h2⟩ := Out.bind_eq_ok.mp h
    injection h2 with h2; subst h2
    unfold strPiece
    split
    · exact .leaf rfl rfl (by simp [Paired]) fun t ht n => by simp [matchRef, ht]
    · exact .leaf rfl rfl (by simp [Paired]) fun t ht n => by simp [matchRef, ht]
  | .ref nm, L, P, hr, h => by
    unfold DCore.comp at h; unfold DCore.WF at hr
    have hn := hr.ne
    cases hl : c.lr nm with
    | some inv =>
      simp only [hl] at h
      injection h with h; subst h
      have hm : mapOut capitalise (sortNames (inv.map cap)) = .ok (sortNames (inv.map cap)) := by
        rw [mapOut_ok (g := id)]
        · simp
        · intro x hx
          rw [mem_sortNames] at hx
          obtain ⟨y, hy, rfl⟩ := List.mem_map.mp hx
          rw [capitalise_eq (cap_ne (hc nm inv hl y hy)), cap_cap]; rfl
      constructor
      · simp [leafP]
      · rfl
      · intro l hl j hj
        simp [leafP] at hl
        rcases hl with rfl | rfl <;> simp [Line.uses] at hj
      · simp [leafP, Paired]
      · intro A B hA
        refine Conv.succ matchRef_zero ((Conv.ok _).congr fun n => ?_)
        have hk : ∀ r ls, (leafP r ls).key L = L := by simp [leafP, Piece.key]
        rw [hk]
        have : (A ++ ((leafP (.leftRecursiveRule nm (sortNames (inv.map cap)))
          [.involvedSet (sortNames (inv.map cap)), .varNameLR L (cap nm) (lower nm)]).nodes ++ B))[L]? =
          some ⟨.leftRecursiveRule nm (sortNames (inv.map cap)), none, none⟩ := by subst hA; simp [leafP]
        simp only [matchRef, this, hm, Out.bind_ok, capitalise_eq hn]
        rfl
    | none =>
      simp only [hl] at h
      split at h
      · injection h with h; subst h
        exact .leaf rfl rfl (by simp [Paired]) fun t ht n => by simp [matchRef, ht]
      · injection h with h; subst h
        exact .leaf rfl rfl (by simp [Paired]) fun t ht n => by simp [matchRef, ht, capitalise_eq hn]
end

end PP.Gen
