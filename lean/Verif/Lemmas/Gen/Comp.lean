import Verif.Lemmas.Gen.Conv

/-! # The expression functions of the generator, computed on written grammars -/
namespace PP.Gen

/-- What the translation of an expression looks up. -/
structure Ctx where
  inl : Bytes → Bool
  lr : Bytes → Option (List Bytes)

/-- `capitalise` on non-empty names. -/
def cap : Bytes → Bytes
  | [] => []
  | c :: cs => upperByte c :: cs

/-- The nodes pushed for an expression, the lines emitted from them, and the hook names collected. -/
structure Piece where
  nodes : List BinaryNode
  lines : List Line
  hooks : List Bytes

/-- The key of the last node of a piece that starts at `L`. -/
def Piece.key (P : Piece) (L : Nat) : Nat := L + P.nodes.length - 1

/-- Append a node (and its line). -/
def Piece.snoc (P : Piece) (r : Reference) (lhs rhs : Option Nat) (l : Line) : Piece :=
  ⟨P.nodes ++ [⟨r, lhs, rhs⟩], P.lines ++ [l], P.hooks⟩

def leafP (r : Reference) (ls : List Line) : Piece := ⟨[⟨r, none, none⟩], ls, []⟩

def PreOp.ref : PreOp → Reference
  | .and => .andPredicate | .not => .notPredicate
def PreOp.un : PreOp → Unary
  | .and => .and | .not => .not
def PostOp.ref : PostOp → Reference
  | .plus => .oneOrMore | .star => .zeroOrMore | .opt => .optional
def PostOp.un : PostOp → Unary
  | .plus => .plus | .star => .star | .opt => .opt
def ChainOp.ref : ChainOp → Reference
  | .seq => .sequence | .choice => .orderedChoice
def ChainOp.bin : ChainOp → Binary
  | .seq => .seq | .choice => .choice

def DBound.value : DBound → Out Nat
  | .term (.chr c) => if c.toNat / 64 = 2 then .panic .slice else .ok c.toNat
  | .term (.esc _) => .ok 92
  | .term .eps => .panic .indexOutOfBounds
  | .int _ => .panic .explicit
  | .hex ds => match fromHex ds with
    | none => .panic .explicit
    | some v => .ok v

/-- The text between the quotes of the emitted byte literal. -/
def chrContent (c : UInt8) : Bytes := if c = 92 then [92, 92] else if c = 39 then [92, 39] else [c]

def DStr.data : DStr → Out (List Nat)
  | .quoted s => .ok (s.map (·.toNat))
  | .int _ => .panic .explicit
  | .hex ds => match fromHex ds with
    | none => .panic .expectFailed
    | some v => match charFromU32 v with
      | none => .panic .expectFailed
      | some c => .ok [c]

def strPiece (L : Nat) (data : List Nat) : Piece :=
  if data.all (· < 128) then leafP (.stringTerminalAsciiOpt data) [.stringTerminalOptAscii L data]
  else leafP (.stringTerminal data) [.stringTerminal L data]

mutual
def DRhs.comp (c : Ctx) (L : Nat) : DRhs → Out Piece
  | .atom _ a => a.comp c L
  | .chain o _ a as => do
    let P ← a.comp c L
    as.comp c o L P
def DAtoms.comp (c : Ctx) (o : ChainOp) (L : Nat) (P : Piece) : DAtoms → Out Piece
  | .one _ a => do
    let Q ← a.comp c (L + P.nodes.length)
    .ok (Piece.snoc ⟨P.nodes ++ Q.nodes, P.lines ++ Q.lines, P.hooks ++ Q.hooks⟩ o.ref (some (P.key L))
      (some (Q.key (L + P.nodes.length))) (.binary o.bin (L + P.nodes.length + Q.nodes.length) (P.key L) (Q.key (L + P.nodes.length))))
  | .cons _ a as => do
    let Q ← a.comp c (L + P.nodes.length)
    as.comp c o L (Piece.snoc ⟨P.nodes ++ Q.nodes, P.lines ++ Q.lines, P.hooks ++ Q.hooks⟩ o.ref (some (P.key L))
      (some (Q.key (L + P.nodes.length))) (.binary o.bin (L + P.nodes.length + Q.nodes.length) (P.key L) (Q.key (L + P.nodes.length))))
def DAtom.comp (c : Ctx) (L : Nat) : DAtom → Out Piece
  | .plain n => n.comp c L
  | .pre o n => do
    let P ← n.comp c L
    .ok (P.snoc o.ref (some (P.key L)) none (.unary o.un (L + P.nodes.length) (P.key L)))
  | .post o n _ => do
    let P ← n.comp c L
    .ok (P.snoc o.ref (some (P.key L)) none (.unary o.un (L + P.nodes.length) (P.key L)))
def DNuc.comp (c : Ctx) (L : Nat) : DNuc → Out Piece
  | .mk k _ => k.comp c L
def DCore.comp (c : Ctx) (L : Nat) : DCore → Out Piece
  | .range _ _ lo hi _ => do
    let s ← lo.value
    let e ← hi.value
    .ok (leafP (.matchRange s e) [.matchRange L s e])
  | .hook name r => do
    let P ← r.comp c L
    let P := P.snoc .subexpression (some (P.key L)) none (.unary .sub (L + P.nodes.length) (P.key L))
    let P := P.snoc (.hookedCall name) (some (P.key L)) none (.hooked (L + P.nodes.length) name (P.key L))
    .ok { P with hooks := name :: P.hooks }
  | .sub r => do
    let P ← r.comp c L
    .ok (P.snoc .subexpression (some (P.key L)) none (.unary .sub (L + P.nodes.length) (P.key L)))
  | .term (.chr b) => if b.toNat / 64 = 2 then .panic .slice else
      .ok (leafP (.terminal (chrContent b)) [.terminal L (chrContent b)])
  | .term (.esc b) => .ok (leafP (.terminal [92, b]) [.terminal L [92, b]])
  | .term .eps => .ok ⟨[⟨.terminal [34], none, none⟩, ⟨.terminal [34], none, none⟩, ⟨.sequence, some L, some (L + 1)⟩],
      [.terminal L [34], .terminal (L + 1) [34], .binary .seq (L + 2) L (L + 1)], []⟩
  | .str s => do
    let data ← s.data
    .ok (strPiece L data)
  | .ref name => match c.lr name with
    | some inv => .ok (leafP (.leftRecursiveRule name (sortNames (inv.map cap)))
        [.involvedSet (sortNames (inv.map cap)), .varNameLR L (cap name) (lower name)])
    | none => if c.inl name then .ok (leafP (.inlinedRule name) [.inlined L (lower name)])
      else .ok (leafP (.varName name) [.varName L (cap name) (lower name)])
end

/-- The result of an expression function that pushes `P` after `a`. -/
def fin (a : Acc) (P : Piece) : Out (Nat × Acc) := .ok (P.key a.1.length, a.1 ++ P.nodes, a.2 ++ P.hooks)

def Env.ctx (e : Env) : Ctx := ⟨e.sym.isInline, e.lr.get⟩

/-- The involved sets hold names (not empty strings). -/
def Env.Named (e : Env) : Prop := ∀ nm inv, e.lr.get nm = some inv → ∀ x ∈ inv, x ≠ []

theorem capitalise_eq {s : Bytes} (h : s ≠ []) : capitalise s = .ok (cap s) := by
  cases s with
  | nil => exact absurd rfl h
  | cons c s => rfl
theorem mapOut_ok {α β : Type} {f : α → Out β} {g : α → β} {l : List α} (h : ∀ x ∈ l, f x = .ok (g x)) :
    mapOut f l = .ok (l.map g) := by
  induction l with
  | nil => rfl
  | cons a l ih => simp [mapOut, h a (by simp), ih fun x hx => h x (by simp [hx])]
theorem mapOut_cap {l : List Bytes} (h : ∀ x ∈ l, x ≠ []) : mapOut capitalise l = .ok (l.map cap) :=
  mapOut_ok fun x hx => capitalise_eq (h x hx)

/-! ### Sorting does not depend on the order of its input -/

theorem bytesLe_total (a b : Bytes) : (bytesLe a b || bytesLe b a) = true := by
  induction a generalizing b with
  | nil => simp [bytesLe]
  | cons x a ih =>
    cases b with
    | nil => simp [bytesLe]
    | cons y b =>
      simp only [bytesLe]
      by_cases h : x = y
      · subst h; simpa using ih b
      · have h' : y ≠ x := fun e => h e.symm
        simp only [h, h', if_false]
        have : x.toNat ≠ y.toNat := fun e => h (UInt8.toNat_inj.mp e)
        simp [UInt8.lt_iff_toNat_lt]
        omega
theorem bytesLe_trans (a b c : Bytes) (h1 : bytesLe a b = true) (h2 : bytesLe b c = true) : bytesLe a c = true := by
  induction a generalizing b c with
  | nil => simp [bytesLe]
  | cons x a ih =>
    cases b with
    | nil => simp [bytesLe] at h1
    | cons y b =>
      cases c with
      | nil => simp [bytesLe] at h2
      | cons z c =>
        simp only [bytesLe] at *
        by_cases hxy : x = y
        · subst hxy
          by_cases hxz : x = z
          · subst hxz; simp at *; exact ih _ _ h1 h2
          · simpa [hxz] using h2
        · by_cases hyz : y = z
          · subst hyz; simpa [hxy] using h1
          · simp only [hxy, hyz, if_false, decide_eq_true_eq, UInt8.lt_iff_toNat_lt] at h1 h2
            have hxz : x ≠ z := by rintro rfl; omega
            simp only [hxz, if_false, decide_eq_true_eq, UInt8.lt_iff_toNat_lt]
            omega
theorem bytesLe_antisymm (a b : Bytes) (h1 : bytesLe a b = true) (h2 : bytesLe b a = true) : a = b := by
  induction a generalizing b with
  | nil => cases b with
    | nil => rfl
    | cons => simp [bytesLe] at h2
  | cons x a ih =>
    cases b with
    | nil => simp [bytesLe] at h1
    | cons y b =>
      simp only [bytesLe] at *
      by_cases hxy : x = y
      · subst hxy; simp at h1 h2; rw [ih b h1 h2]
      · have h' : y ≠ x := fun e => hxy e.symm
        simp only [hxy, h', if_false, decide_eq_true_eq, UInt8.lt_iff_toNat_lt] at h1 h2
        omega

theorem sortNames_perm {l l' : List Bytes} (h : l.Perm l') : sortNames l = sortNames l' := by
  unfold sortNames
  have s1 := List.pairwise_mergeSort bytesLe_trans bytesLe_total l
  have s2 := List.pairwise_mergeSort bytesLe_trans bytesLe_total l'
  have hp : (l.mergeSort bytesLe).Perm (l'.mergeSort bytesLe) :=
    (List.mergeSort_perm l bytesLe).trans (h.trans (List.mergeSort_perm l' bytesLe).symm)
  exact hp.eq_of_pairwise (fun a b _ _ h1 h2 => bytesLe_antisymm a b h1 h2) s1 s2

end PP.Gen
