import Verif.Lemmas.Mini.Place
import Verif.Lemmas.Mini.Core
import Verif.Model.Interp

/-! # The state of the model in the heap -/
namespace PP.Mini

/-- A pair of a rule and a position, as the core's maps have them for keys. -/
def encAt {R : Type} (vn : R → Name) (x : R × Nat) : Val := .tuple [encRule vn x.1, .int x.2]
def encActive {R : Type} (vn : R → Name) : Option (R × Nat) → Val
  | none => .none
  | some x => .some (encAt vn x)
def encMemo (x : Bool × Nat × Nat) : Val := .tuple [.bool x.1, .int x.2.1, encKey x.2.2]
def encHead {R : Type} (vn : R → Name) (x : Head R) : Val :=
  .struct n!"Head" [(n!"start_position", .int x.startPosition), (n!"active_left_recursion_rule", encRule vn x.activeRule),
    (n!"involved_set", .set (x.involved.map (encRule vn))), (n!"eval_set", .set (x.evalSet.map (encRule vn)))]

/-- The value of a key in a map. -/
def lookupV (k : Val) (l : List (Val × Val)) : Option Val := ((findKey k l).bind (l[·]?)).map (·.2)
/-- Insertion into a map. -/
def insertV (k x : Val) (l : List (Val × Val)) : List (Val × Val) :=
  match findKey k l with
  | some i => l.set i (k, x)
  | none => l ++ [(k, x)]

/-- The entries of a map. -/
def MapRel {R β : Type} (vn : R → Name) (enc : β → Val) (l : List (Val × Val)) (f : R → Nat → Option β) : Prop :=
  ∀ r p, lookupV (encAt vn (r, p)) l = (f r p).map enc

def cacheVal {R : Type} (vn : R → Name) (l l' : List (Val × Val)) (act : Option (R × Nat)) : Val :=
  .struct n!"BasicCache" [(n!"cache", .map l), (n!"heads", .map l'), (n!"current_active_left_recursion", encActive vn act)]
def ctxVal {R : Type} (vn : R → Name) (l l' : List (Val × Val)) (act : Option (R × Nat)) (p : Publisher R) : Val :=
  .struct n!"BasicContext" [(n!"cache", cacheVal vn l l' act), (n!"publisher", encPub vn p)]

/-- A program with the core, names of variants, and where the context and the user state are. -/
structure World (R U : Type) where
  Q : Prog
  core : HasCore Q
  vn : R → Name
  inj : ∀ r s, vn r = vn s → r = s
  ur : U → Val → Prop
  a : Nat
  u : Nat
  ne : a ≠ u
  src : Source

section
variable {R U : Type} (W : World R U)

/-- The heap holds the state. -/
structure World.Good (st : St R U) (h : Heap) : Prop where
  ctx : ∃ l l', h[W.a]? = some (ctxVal W.vn l l' st.cache.active st.pub) ∧ MapRel W.vn encMemo l st.cache.memo ∧
    MapRel W.vn (encHead W.vn) l' st.cache.heads
  user : ∃ w, h[W.u]? = some w ∧ W.ur st.user w
  len : st.pub.nodes.length ≤ 4294967296

/-- Only the context and the user state have changed. -/
structure World.Frame (h h' : Heap) : Prop where
  le : h.length ≤ h'.length
  eq : ∀ i, i < h.length → i ≠ W.a → i ≠ W.u → h'[i]? = h[i]?

theorem World.Frame.rfl' {h : Heap} : W.Frame h h := ⟨Nat.le_refl _, fun _ _ _ _ => rfl⟩
theorem World.Frame.trans {W : World R U} {h h' h'' : Heap} (f : W.Frame h h') (g : W.Frame h' h'') : W.Frame h h'' :=
  ⟨Nat.le_trans f.le g.le, fun i hi ha hu => (g.eq i (Nat.lt_of_lt_of_le hi f.le) ha hu).trans (f.eq i hi ha hu)⟩

/-- The results agree. -/
def World.K (h : Heap) (v : Val) (h' : Heap) (x : Bool × Nat × St R U) : Prop :=
  v = .tuple [.bool x.1, .int x.2.1] ∧ W.Good x.2.2 h' ∧ W.Frame h h'

/-- A function of the program (a closure) does what one of the model does. -/
def World.Fn (d : Dir) (n : Nat) (f : Val) (g : PFn R U) : Prop :=
  ∀ parent pos st h, W.Good st h →
    Sim d (W.K h) (run W.Q n f [encKey parent, encSource W.src, .int pos] h) (g parent pos st)

variable {W}
theorem World.Good.lt_a {st : St R U} {h : Heap} (g : W.Good st h) : W.a < h.length :=
  let ⟨_, _, h, _, _⟩ := g.ctx
  (List.getElem?_eq_some_iff.mp h).1
theorem World.Good.lt_u {st : St R U} {h : Heap} (g : W.Good st h) : W.u < h.length :=
  let ⟨_, h, _⟩ := g.user
  (List.getElem?_eq_some_iff.mp h).1

theorem World.Good.push {st : St R U} {h : Heap} (g : W.Good st h) (v : Val) : W.Good st (h ++ [v]) where
  ctx := let ⟨l, l', e, m, m'⟩ := g.ctx; ⟨l, l', by rw [List.getElem?_append_left g.lt_a]; exact e, m, m'⟩
  user := let ⟨w, e, hw⟩ := g.user; ⟨w, by rw [List.getElem?_append_left g.lt_u]; exact e, hw⟩
  len := g.len
theorem World.Frame.push {h h' : Heap} (f : W.Frame h h') (v : Val) : W.Frame h (h' ++ [v]) where
  le := by have := f.le; simp; omega
  eq i hi ha hu := by rw [List.getElem?_append_left (Nat.lt_of_lt_of_le hi f.le)]; exact f.eq i hi ha hu

theorem World.Good.set {st : St R U} {h : Heap} (g : W.Good st h) {i : Nat} (ha : i ≠ W.a) (hu : i ≠ W.u) (v : Val) : W.Good st (h.set i v) where
  ctx := let ⟨l, l', e, m, m'⟩ := g.ctx; ⟨l, l', by rw [List.getElem?_set_ne ha]; exact e, m, m'⟩
  user := let ⟨w, e, hw⟩ := g.user; ⟨w, by rw [List.getElem?_set_ne hu]; exact e, hw⟩
  len := g.len
theorem World.Frame.set {h h' : Heap} (f : W.Frame h h') {i : Nat} (hi : h.length ≤ i) (v : Val) : W.Frame h (h'.set i v) where
  le := by have := f.le; simp; omega
  eq j hj ha hu := by rw [List.getElem?_set_ne (by omega)]; exact f.eq j hj ha hu

/-- A local variable is read. -/
theorem load_loc {h : Heap} {i : Nat} {v : Val} (e : h[i]? = some v) : load (.ref i []) h = .ok v h := by
  simp [load, loadV, e, getAt_nil]
/-- A local variable is assigned to. -/
theorem store_loc {h : Heap} {i : Nat} {v w : Val} (e : h[i]? = some v) : store i [] w h = .ok .unit (h.set i w) := by
  simp [store, e, putAt_nil]
end

end PP.Mini
