import Verif.Lemmas.Mini.Clear

/-! # cache.rs does what Model/Cache says -/
namespace PP.Mini
attribute [local congr] Res.bind_congr loopN_congr forN_congr

section maps
theorem findKey_cons (k x v : Val) (l : List (Val × Val)) :
    findKey k ((x, v) :: l) = if valEq x k = some true then some 0 else (findKey k l).map (· + 1) := by
  simp only [findKey, List.findIdx?_cons, decide_eq_true_eq]

theorem lookupV_nil (k : Val) : lookupV k [] = none := rfl
theorem lookupV_cons (k x v : Val) (l : List (Val × Val)) : lookupV k ((x, v) :: l) = if valEq x k = some true then some v else lookupV k l := by
  unfold lookupV
  rw [findKey_cons]
  split
  · rfl
  · cases findKey k l <;> simp

theorem insertV_nil (k w : Val) : insertV k w [] = [(k, w)] := rfl
theorem insertV_cons (k w x v : Val) (l : List (Val × Val)) :
    insertV k w ((x, v) :: l) = if valEq x k = some true then (k, w) :: l else (x, v) :: insertV k w l := by
  unfold insertV
  rw [findKey_cons]
  by_cases h : valEq x k = some true
  · simp only [h, if_true, List.set_cons_zero]
  · simp only [h, if_false]
    cases findKey k l <;> simp

variable {R : Type} {vn : R → Name}

theorem atomEq_rule {a : Val} {r : R} (h : atomEq a (encRule vn r) = some true) : a = encRule vn r := by
  cases a <;> simp [atomEq, encRule] at h ⊢
  exact h
theorem atomEq_int {a : Val} {k : Nat} (h : atomEq a (.int k) = some true) : a = .int k := by
  cases a <;> simp [atomEq] at h ⊢
  exact h
theorem atomEq_rule_self (r : R) : atomEq (encRule vn r) (encRule vn r) = some true := by simp [atomEq, encRule]

theorem valEq_at {x : Val} {k : R × Nat} : valEq x (encAt vn k) = some true ↔ x = encAt vn k := by
  constructor
  · intro h
    obtain ⟨a, b, rfl⟩ : ∃ a b, x = .tuple [a, b] := by
      unfold encAt at h
      cases x with
      | tuple l =>
        match l, h with
        | [a, b], _ => exact ⟨a, b, rfl⟩
        | [], h => simp [valEq, atomEq] at h
        | [a], h => simp [valEq, atomEq] at h
        | a :: b :: c :: l, h => simp [valEq, atomEq] at h
      | _ => simp [valEq, atomEq] at h
    · simp only [encAt, valEq] at h ⊢
      cases h1 : atomEq a (encRule vn k.1) with
      | none => simp [h1] at h
      | some y =>
        cases h2 : atomEq b (.int k.2) with
        | none => simp [h1, h2] at h
        | some z =>
          simp only [h1, h2, Option.bind_eq_bind, Option.bind_some, Option.some.injEq, Bool.and_eq_true] at h
          rw [h.1] at h1
          rw [h.2] at h2
          rw [atomEq_rule h1, atomEq_int h2]
  · rintro rfl
    simp [encAt, valEq, atomEq, encRule]

theorem encAt_inj (inj : ∀ r s, vn r = vn s → r = s) {x y : R × Nat} (h : encAt vn x = encAt vn y) : x = y := by
  simp only [encAt, encRule, Val.tuple.injEq, List.cons.injEq, Val.variant.injEq, Val.int.injEq, true_and, and_true] at h
  exact Prod.ext (inj _ _ h.1) h.2

theorem lookupV_insertV [DecidableEq R] (inj : ∀ r s, vn r = vn s → r = s) (k j : R × Nat) (w : Val) : ∀ l : List (Val × Val),
    lookupV (encAt vn j) (insertV (encAt vn k) w l) = if j = k then some w else lookupV (encAt vn j) l
  | [] => by
    rw [insertV_nil, lookupV_cons, lookupV_nil]
    by_cases e : j = k
    · subst e; rw [if_pos (valEq_at.mpr rfl), if_pos rfl]
    · rw [if_neg (fun h => e (encAt_inj inj (valEq_at.mp h)).symm), if_neg e]
  | (x, v) :: l => by
    rw [insertV_cons, lookupV_cons]
    by_cases e : j = k
    · subst e
      rw [if_pos rfl]
      by_cases h : valEq x (encAt vn j) = some true
      · rw [if_pos h, lookupV_cons, if_pos (valEq_at.mpr rfl)]
      · rw [if_neg h, lookupV_cons, if_neg h, lookupV_insertV inj j j w l, if_pos rfl]
    · rw [if_neg e]
      have e' : ¬ valEq (encAt vn k) (encAt vn j) = some true := fun h => e (encAt_inj inj (valEq_at.mp h)).symm
      by_cases h : valEq x (encAt vn k) = some true
      · have hx := valEq_at.mp h; subst hx
        rw [if_pos h, lookupV_cons, if_neg e', if_neg e']
      · rw [if_neg h, lookupV_cons, lookupV_insertV inj k j w l, if_neg e]

theorem MapRel.insert {β : Type} {enc : β → Val} {l f} (inj : ∀ r s, vn r = vn s → r = s) [DecidableEq R] (hl : MapRel vn enc l f) (r : R) (p : Nat) (x : β) :
    MapRel vn enc (insertV (encAt vn (r, p)) (enc x) l) fun r' p' => if r' = r ∧ p' = p then some x else f r' p' := by
  intro r' p'
  rw [lookupV_insertV inj]
  by_cases e : r' = r ∧ p' = p
  · simp [e]
  · have : ¬ ((r', p') = (r, p)) := by simpa using e
    simp [e, hl r' p']

/-- An entry, as a place. -/
theorem findKey_some {k : R × Nat} {i : Nat} : ∀ {l : List (Val × Val)}, findKey (encAt vn k) l = some i →
    ∃ v, l[i]? = some (encAt vn k, v) ∧ lookupV (encAt vn k) l = some v ∧ ∀ w, l.set i (encAt vn k, w) = insertV (encAt vn k) w l := by
  intro l h
  have h' := h
  unfold findKey at h'
  rw [List.findIdx?_eq_some_iff_getElem] at h'
  obtain ⟨hi, hv, -⟩ := h'
  simp only [decide_eq_true_eq, valEq_at] at hv
  refine ⟨l[i].2, ?_, ?_, ?_⟩
  · rw [List.getElem?_eq_getElem hi, ← hv]
  · simp [lookupV, h, hi]
  · intro w; simp [insertV, h]
theorem findKey_none {k : R × Nat} {l : List (Val × Val)} (h : findKey (encAt vn k) l = none) : lookupV (encAt vn k) l = none := by
  simp [lookupV, h]

/-- An optional value. -/
def optV : Option Val → Val
  | none => .none
  | some v => .some v

theorem m_map_get {pl : Val} {l} {k : R × Nat} {h : Heap} : method n!"get" pl (.map l) [encAt vn k] h = .ok (optV (lookupV (encAt vn k) l)) h := by
  have e : method n!"get" pl (.map l) [encAt vn k] h = (match findKey (encAt vn k) l with
      | some i =>
        match l[i]? with
        | some e => .ok (.some e.2) h
        | none => .stuck
      | none => .ok .none h) := rfl
  rw [e]
  cases hf : findKey (encAt vn k) l with
  | none => simp [findKey_none hf, optV]
  | some i => obtain ⟨v, hv, hl, -⟩ := findKey_some hf; simp [hv, hl, optV]

theorem m_map_insert {a : Nat} {p : List Step} {l} {k : R × Nat} {x : Val} {h : Heap} (hp : loadV h (.ref a p) = some (.map l)) :
    ∃ v, method n!"insert" (.ref a p) (.map l) [encAt vn k, x] h = .ok v (upd h a p (.map (insertV (encAt vn k) x l))) := by
  have e : method n!"insert" (.ref a p) (.map l) [encAt vn k, x] h = (match findKey (encAt vn k) l with
      | some i =>
        match l[i]? with
        | some e => (store a p (.map (l.set i (encAt vn k, x))) h).bind fun _ h => .ok (.some e.2) h
        | none => .stuck
      | none => (store a p (.map (l ++ [(encAt vn k, x)])) h).bind fun _ h => .ok .none h) := rfl
  rw [e]
  cases hf : findKey (encAt vn k) l with
  | none => simp [store_place hp, Res.bind_ok, insertV, hf]
  | some i => obtain ⟨v, hv, hl, hs⟩ := findKey_some hf; simp [hv, store_place hp, Res.bind_ok, hs]

theorem memV_rule (inj : ∀ r s, vn r = vn s → r = s) [DecidableEq R] (r : R) : ∀ l : List R, memV (encRule vn r) (l.map (encRule vn)) = l.contains r
  | [] => rfl
  | x :: l => by
    have ih := memV_rule inj r l
    unfold memV at ih ⊢
    rw [List.map_cons, List.any_cons, ih, List.contains_cons]
    congr 1
    by_cases e : x = r
    · subst e; simp [valEq, encRule, atomEq]
    · have : vn x ≠ vn r := fun h => e (inj _ _ h)
      have e' : (r == x) = false := by simpa using fun h => e h.symm
      simp [valEq, encRule, atomEq, this, e']

theorem filter_rule (inj : ∀ r s, vn r = vn s → r = s) [DecidableEq R] (r : R) (l : List R) :
    (l.map (encRule vn)).filter (fun y => valEq y (encRule vn r) ≠ some true) = (l.filter (· ≠ r)).map (encRule vn) := by
  induction l with
  | nil => rfl
  | cons x l ih =>
    rw [List.map_cons, List.filter_cons, List.filter_cons, ih]
    by_cases e : x = r
    · subst e; simp [valEq, encRule, atomEq]
    · have : vn x ≠ vn r := fun h => e (inj _ _ h)
      simp [valEq, encRule, atomEq, this, e]
end maps
end PP.Mini
