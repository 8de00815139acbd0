import Verif.Lemmas.Mini.Sim

/-! # Places in the heap -/
namespace PP.Mini

theorem getAt_nil (v : Val) : getAt v [] = some v := by cases v <;> rfl
theorem putAt_nil (v w : Val) : putAt v [] w = some w := by cases v <;> rfl

theorem lookup_setField {f : Name} {v w : Val} : ∀ {fs : List (Name × Val)}, fs.lookup f = some w → (setField f v fs).lookup f = some v
  | (g, u) :: fs, h => by
    by_cases e : g = f
    · subst e; simp [setField]
    · have e' : (f == g) = false := by simpa using fun h => e h.symm
      simp only [List.lookup, e'] at h
      simp only [setField, e, if_false, List.lookup, e']
      exact lookup_setField h
theorem setField_setField {f : Name} {v w : Val} : ∀ {fs : List (Name × Val)}, setField f w (setField f v fs) = setField f w fs
  | [] => rfl
  | (g, u) :: fs => by
    by_cases e : g = f
    · subst e; simp [setField]
    · simp [setField, e, setField_setField (fs := fs)]

/-- One step into a value. -/
def stepAt : Val → Step → Option Val
  | .struct _ fs, .fld f => fs.lookup f
  | .tuple l, .fld i => l[i]?
  | .vec l, .idx i => l[i]?
  | .map l, .idx i => (l[i]?).map (·.2)
  | _, _ => none

/-- A value with one part replaced (if there is such a part). -/
def stepPut : Val → Step → Val → Val
  | .struct n fs, .fld f, w => .struct n (setField f w fs)
  | .tuple l, .fld i, w => .tuple (l.set i w)
  | .vec l, .idx i, w => .vec (l.set i w)
  | .map l, .idx i, w => .map (match l[i]? with
    | some e => l.set i (e.1, w)
    | none => l)
  | v, _, _ => v

theorem getAt_cons (v : Val) (s : Step) (p : List Step) : getAt v (s :: p) = (stepAt v s).bind (getAt · p) := by
  cases v <;> cases s <;> simp only [getAt, stepAt, Option.bind_none]
  case map.idx l i => cases l[i]? <;> rfl
theorem putAt_cons (v : Val) (s : Step) (p : List Step) (w : Val) :
    putAt v (s :: p) w = (stepAt v s).bind fun u => (putAt u p w).map (stepPut v s) := by
  cases v <;> cases s <;> simp only [putAt, stepAt, Option.bind_none]
  case struct.fld n fs f =>
    cases fs.lookup f with
    | none => rfl
    | some u => simp only [Option.bind_some, bind]; cases putAt u p w <;> rfl
  case tuple.fld l i =>
    cases l[i]? with
    | none => rfl
    | some u => simp only [Option.bind_some, bind]; cases putAt u p w <;> rfl
  case vec.idx l i =>
    cases l[i]? with
    | none => rfl
    | some u => simp only [Option.bind_some, bind]; cases putAt u p w <;> rfl
  case map.idx l i =>
    cases hl : l[i]? with
    | none => rfl
    | some u =>
      simp only [Option.bind_some, Option.map_some, bind]
      cases putAt u.2 p w <;> simp [stepPut, hl]

theorem stepAt_stepPut {v : Val} {s : Step} {u w : Val} (h : stepAt v s = some u) : stepAt (stepPut v s w) s = some w := by
  cases v <;> cases s <;> simp only [stepAt, reduceCtorEq] at h
  case struct.fld n fs f => exact lookup_setField h
  case tuple.fld l i =>
    have := (List.getElem?_eq_some_iff.mp h).1
    simp [stepAt, stepPut, this]
  case vec.idx l i =>
    have := (List.getElem?_eq_some_iff.mp h).1
    simp [stepAt, stepPut, this]
  case map.idx l i =>
    cases hl : l[i]? with
    | none => simp [hl] at h
    | some e =>
      have := (List.getElem?_eq_some_iff.mp hl).1
      simp [stepAt, stepPut, this]

theorem stepPut_stepPut (v : Val) (s : Step) (w w' : Val) : stepPut (stepPut v s w) s w' = stepPut v s w' := by
  cases v <;> cases s <;> simp only [stepPut, setField_setField, List.set_set]
  case map.idx l i =>
    cases hl : l[i]? with
    | none => simp [hl]
    | some e =>
      have := (List.getElem?_eq_some_iff.mp hl).1
      simp [this]

theorem getAt_append : ∀ (p q : List Step) (v : Val), getAt v (p ++ q) = (getAt v p).bind (getAt · q)
  | [], q, v => by simp [getAt_nil]
  | s :: p, q, v => by
    rw [List.cons_append, getAt_cons, getAt_cons]
    cases stepAt v s with
    | none => rfl
    | some u => exact getAt_append p q u

theorem putAt_append (q : List Step) (w : Val) : ∀ (p : List Step) (v : Val),
    putAt v (p ++ q) w = (getAt v p).bind fun u => (putAt u q w).bind (putAt v p ·)
  | [], v => by simp [getAt_nil, putAt_nil]
  | s :: p, v => by
    rw [List.cons_append, getAt_cons, putAt_cons]
    cases h : stepAt v s with
    | none => rfl
    | some u =>
      simp only [Option.bind_some]
      rw [putAt_append q w p u]
      cases getAt u p with
      | none => rfl
      | some x =>
        simp only [Option.bind_some]
        cases putAt x q w with
        | none => rfl
        | some y => simp only [Option.bind_some, putAt_cons, h]

theorem putAt_some {w : Val} : ∀ {p : List Step} {v u : Val}, getAt v p = some u → ∃ v', putAt v p w = some v'
  | [], v, u, _ => ⟨w, putAt_nil v w⟩
  | s :: p, v, u, h => by
    rw [getAt_cons] at h
    cases hs : stepAt v s with
    | none => simp [hs] at h
    | some x =>
      simp only [hs, Option.bind_some] at h
      obtain ⟨v', hv⟩ := putAt_some (w := w) h
      exact ⟨_, by rw [putAt_cons, hs, Option.bind_some, hv]; rfl⟩

theorem getAt_putAt {w : Val} : ∀ {p : List Step} {v v' : Val}, putAt v p w = some v' → getAt v' p = some w
  | [], v, v', h => by rw [putAt_nil] at h; cases h; exact getAt_nil _
  | s :: p, v, v', h => by
    rw [putAt_cons] at h
    cases hs : stepAt v s with
    | none => simp [hs] at h
    | some x =>
      simp only [hs, Option.bind_some, Option.map_eq_some_iff] at h
      obtain ⟨y, hy, rfl⟩ := h
      rw [getAt_cons, stepAt_stepPut hs, Option.bind_some]
      exact getAt_putAt hy

theorem putAt_putAt {w w' : Val} : ∀ {p : List Step} {v v' : Val}, putAt v p w = some v' → putAt v' p w' = putAt v p w'
  | [], v, v', h => by rw [putAt_nil, putAt_nil]
  | s :: p, v, v', h => by
    rw [putAt_cons] at h
    cases hs : stepAt v s with
    | none => simp [hs] at h
    | some x =>
      simp only [hs, Option.bind_some, Option.map_eq_some_iff] at h
      obtain ⟨y, hy, rfl⟩ := h
      rw [putAt_cons, putAt_cons, stepAt_stepPut hs, hs, Option.bind_some, Option.bind_some, putAt_putAt hy]
      cases putAt x p w' with
      | none => rfl
      | some z => simp [stepPut_stepPut]

theorem setField_self {f : Name} {v : Val} : ∀ {fs : List (Name × Val)}, fs.lookup f = some v → setField f v fs = fs
  | [], _ => rfl
  | (g, u) :: fs, h => by
    by_cases e : g = f
    · subst e; simp only [List.lookup, beq_self_eq_true, Option.some.injEq] at h; simp [setField, h]
    · have e' : (f == g) = false := by simpa using fun h => e h.symm
      simp only [List.lookup, e'] at h
      simp [setField, e, setField_self h]
theorem stepPut_self {v : Val} {s : Step} {u : Val} (h : stepAt v s = some u) : stepPut v s u = v := by
  cases v <;> cases s <;> simp only [stepAt, reduceCtorEq] at h
  case struct.fld n fs f => simp [stepPut, setField_self h]
  case tuple.fld l i =>
    obtain ⟨hl, rfl⟩ := List.getElem?_eq_some_iff.mp h
    simp [stepPut]
  case vec.idx l i =>
    obtain ⟨hl, rfl⟩ := List.getElem?_eq_some_iff.mp h
    simp [stepPut]
  case map.idx l i =>
    cases hl : l[i]? with
    | none => simp [hl] at h
    | some e =>
      obtain ⟨hi, rfl⟩ := List.getElem?_eq_some_iff.mp hl
      simp only [hl, Option.map_some, Option.some.injEq] at h
      subst h
      simp only [stepPut, hl]
      exact congrArg Val.map (List.set_getElem_self hi)
theorem putAt_self : ∀ {p : List Step} {v u : Val}, getAt v p = some u → putAt v p u = some v
  | [], v, u, h => by rw [getAt_nil] at h; cases h; exact putAt_nil _ _
  | s :: p, v, u, h => by
    rw [getAt_cons] at h
    cases hs : stepAt v s with
    | none => simp [hs] at h
    | some x =>
      simp only [hs, Option.bind_some] at h
      rw [putAt_cons, hs, Option.bind_some, putAt_self h, Option.map_some, stepPut_self hs]

/-- The heap with a place changed. -/
def upd (h : Heap) (a : Nat) (p : List Step) (w : Val) : Heap :=
  match (h[a]?).bind (putAt · p w) with
  | some v => h.set a v
  | none => h

section
variable {h : Heap} {a : Nat} {p : List Step} {v w : Val}

theorem loadV_append (h : Heap) (a : Nat) (p : List Step) (s : Step) :
    loadV h (.ref a (p ++ [s])) = (loadV h (.ref a p)).bind (stepAt · s) := by
  simp only [loadV]
  cases h[a]? with
  | none => rfl
  | some x =>
    simp only [Option.bind_some, getAt_append]
    cases getAt x p with
    | none => rfl
    | some y => simp only [Option.bind_some, getAt_cons]; cases stepAt y s <;> simp [getAt_nil]

theorem place_some (hp : loadV h (.ref a p) = some v) : ∃ x, h[a]? = some x ∧ getAt x p = some v := by
  simp only [loadV] at hp
  cases hx : h[a]? with
  | none => simp [hx] at hp
  | some x => exact ⟨x, rfl, by simpa [hx] using hp⟩

theorem place_lt (hp : loadV h (.ref a p) = some v) : a < h.length :=
  let ⟨_, hx, _⟩ := place_some hp
  (List.getElem?_eq_some_iff.mp hx).1

theorem upd_eq (hp : loadV h (.ref a p) = some v) : ∃ x, h[a]? = some x ∧ ∃ y, putAt x p w = some y ∧ upd h a p w = h.set a y := by
  obtain ⟨x, hx, hg⟩ := place_some hp
  obtain ⟨y, hy⟩ := putAt_some (w := w) hg
  exact ⟨x, hx, y, hy, by simp [upd, hx, hy]⟩

theorem store_place (hp : loadV h (.ref a p) = some v) : store a p w h = .ok .unit (upd h a p w) := by
  obtain ⟨x, hx, y, hy, e⟩ := upd_eq (w := w) hp
  simp [store, hx, hy, e]

theorem load_upd (hp : loadV h (.ref a p) = some v) : loadV (upd h a p w) (.ref a p) = some w := by
  obtain ⟨x, hx, y, hy, e⟩ := upd_eq (w := w) hp
  rw [e]
  simp [loadV, place_lt hp, getAt_putAt hy]

theorem upd_upd (hp : loadV h (.ref a p) = some v) {w' : Val} : upd (upd h a p w) a p w' = upd h a p w' := by
  obtain ⟨x, hx, y, hy, e⟩ := upd_eq (w := w) hp
  obtain ⟨x', hx', y', hy', e'⟩ := upd_eq (w := w') hp
  rw [hx] at hx'; cases hx'
  rw [e, e']
  simp [upd, place_lt hp, putAt_putAt hy, hy', List.set_set]

theorem upd_step {s : Step} {u : Val} (hp : loadV h (.ref a p) = some v) (hs : stepAt v s = some u) :
    upd h a (p ++ [s]) w = upd h a p (stepPut v s w) := by
  obtain ⟨x, hx, hg⟩ := place_some hp
  simp only [upd, hx, Option.bind_some, putAt_append, hg, putAt_cons, hs, putAt_nil, Option.map_some]

theorem upd_self (hp : loadV h (.ref a p) = some v) : upd h a p v = h := by
  obtain ⟨x, hx, hg⟩ := place_some hp
  obtain ⟨hl, rfl⟩ := List.getElem?_eq_some_iff.mp hx
  simp [upd, hx, putAt_self hg]

theorem upd_length : (upd h a p w).length = h.length := by
  unfold upd; split <;> simp

theorem upd_other {i : Nat} (hi : i ≠ a) : (upd h a p w)[i]? = h[i]? := by
  unfold upd; split
  · exact List.getElem?_set_ne (Ne.symm hi)
  · rfl

theorem upd_root (hp : loadV h (.ref a []) = some v) : (upd h a [] w)[a]? = some w := by
  have := load_upd (w := w) hp
  obtain ⟨x, hx, hg⟩ := place_some this
  rw [getAt_nil] at hg; cases hg; exact hx
end

end PP.Mini
