import Verif.Spec.Cst
import Verif.Model.Interp
import Verif.Spec.Rust

/-! # Specification: what a written expression is supposed to mean

README.md ("How to write a grammar file"): terminals and strings match the bytes written, ranges the bytes between their
bounds, prefix and postfix operators apply to the nucleus next to them, chains associate to the left.  Which rules are
inlined and which are left recursive (with which involved rules) is a parameter. -/
namespace PP.Gen

/-- How references are to be translated. -/
structure Refs where
  inline : Bytes → Bool
  leftRec : Bytes → Option (List Bytes)

/-- Rules are identified by the lower-cased name. -/
def Refs.expr (c : Refs) (name : Bytes) : Expr Bytes :=
  match c.leftRec name with
  | some inv => .varNameLR inv (lower name)
  | none => if c.inline name then .inlined (lower name) else .varName (lower name)

/-- Value of a hexadecimal literal. -/
def hexValue (ds : Bytes) : Nat := ds.foldl (fun v d => v * 16 + (if d.toNat ≤ 57 then d.toNat - 48 else d.toNat - 55)) 0
/-- Value of a decimal literal. -/
def decValue (ds : Bytes) : Nat := ds.foldl (fun v d => v * 10 + (d.toNat - 48)) 0

/-- The byte an escape stands for. -/
def escMeaning (c : UInt8) : UInt8 := if c = 110 then 10 else if c = 114 then 13 else 9

/-- The code of the character a bound names (`''` names none). -/
def DBound.meaning : DBound → Option Nat
  | .term (.chr c) => some c.toNat
  | .term (.esc c) => some (escMeaning c).toNat
  | .term .eps => none
  | .int ds => some (decValue ds)
  | .hex ds => some (hexValue ds)

def DTerm.meaning : DTerm → Option (Expr Bytes)
  | .chr c => some (.terminal c)
  | .esc c => some (.terminal (escMeaning c))
  | .eps => some (.stringTerminal [])

/-- UTF-8 of a code point below 128 is one byte; larger ones are not given a meaning here. -/
def codePoint (n : Nat) : Option (List UInt8) := if n < 128 then some [UInt8.ofNat n] else none

def DStr.meaning : DStr → Option (List UInt8)
  | .quoted s => some s
  | .hex ds => codePoint (hexValue ds)
  | .int ds => codePoint (decValue ds)

/-- How the leaves of expressions are to be read. -/
structure Leaves where
  term : DTerm → Option (Expr Bytes)
  bound : DBound → Option Nat
  str : DStr → Option (List UInt8)

/-- As written. -/
def written : Leaves := ⟨DTerm.meaning, DBound.meaning, DStr.meaning⟩

def PreOp.mk : PreOp → Expr Bytes → Expr Bytes
  | .and => .andPredicate | .not => .notPredicate
def PostOp.mk : PostOp → Expr Bytes → Expr Bytes
  | .plus => .oneOrMore | .star => .zeroOrMore | .opt => .optional
def ChainOp.mk : ChainOp → Expr Bytes → Expr Bytes → Expr Bytes
  | .seq => .sequence | .choice => .orderedChoice

mutual
def DRhs.meaning (lv : Leaves) (c : Refs) : DRhs → Option (Expr Bytes)
  | .atom _ a => a.meaning lv c
  | .chain o _ a as => do
    let x ← a.meaning lv c
    as.meaning lv c o x
/-- Left-associative. -/
def DAtoms.meaning (lv : Leaves) (c : Refs) (o : ChainOp) (x : Expr Bytes) : DAtoms → Option (Expr Bytes)
  | .one _ a => do
    let y ← a.meaning lv c
    some (o.mk x y)
  | .cons _ a as => do
    let y ← a.meaning lv c
    as.meaning lv c o (o.mk x y)
def DAtom.meaning (lv : Leaves) (c : Refs) : DAtom → Option (Expr Bytes)
  | .plain n => n.meaning lv c
  | .pre o n => do
    let x ← n.meaning lv c
    some (o.mk x)
  | .post o n _ => do
    let x ← n.meaning lv c
    some (o.mk x)
def DNuc.meaning (lv : Leaves) (c : Refs) : DNuc → Option (Expr Bytes)
  | .mk k _ => k.meaning lv c
def DCore.meaning (lv : Leaves) (c : Refs) : DCore → Option (Expr Bytes)
  | .range _ _ lo hi _ => do
    let a ← lv.bound lo
    let b ← lv.bound hi
    some (.matchRange a b)
  | .hook name r => do
    let x ← r.meaning lv c
    some (.hooked (asStr name) (.subexpression x))
  | .sub r => do
    let x ← r.meaning lv c
    some (.subexpression x)
  | .term t => lv.term t
  | .str s => do
    let d ← lv.str s
    some (.stringTerminal d)
  | .ref name => some (c.expr name)
end

/-! ### What the generator makes of the leaves (where it differs from what is written) -/

/-- `''` becomes two double quotes; a raw newline, carriage return or tab (or a non-ASCII byte) becomes a literal that is
not Rust. -/
def DTerm.emitted : DTerm → Option (Expr Bytes)
  | .chr c => if c < 128 ∧ c ≠ 10 ∧ c ≠ 13 ∧ c ≠ 9 then some (.terminal c) else none
  | .esc c => some (.terminal (escMeaning c))
  | .eps => some (.sequence (.terminal 34) (.terminal 34))
/-- An escaped bound becomes the backslash. -/
def DBound.emitted : DBound → Option Nat
  | .term (.chr c) => some c.toNat
  | .term (.esc _) => some 92
  | .term .eps => none
  | .int _ => none
  | .hex ds => some (hexValue ds)
/-- The text is put between quotes as it stands, so that Rust reads backslashes as escapes. -/
def DStr.emitted : DStr → Option (List UInt8)
  | .quoted s => byteStr (s.map (·.toNat))
  | .hex ds => byteStr [hexValue ds]
  | .int _ => none
def emitted : Leaves := ⟨DTerm.emitted, DBound.emitted, DStr.emitted⟩

/-! ### Leaves the generator panics on -/

/-- A UTF-8 continuation byte: no character starts there, so slicing there panics. -/
def IsCont (c : UInt8) : Prop := 128 ≤ c.toNat ∧ c.toNat < 192

def DBound.Panics : DBound → Prop
  | .term (.chr c) => IsCont c
  | .term (.esc _) => False
  | .term .eps => True
  | .int _ => True
  | .hex ds => 4294967296 ≤ hexValue ds
def DStr.Panics : DStr → Prop
  | .quoted _ => False
  | .hex ds => 0x110000 ≤ hexValue ds ∨ (0xD800 ≤ hexValue ds ∧ hexValue ds ≤ 0xDFFF)
  | .int _ => True
mutual
/-- Some leaf is an empty or decimal range bound, a hexadecimal literal out of range, a decimal string or (not possible in
valid UTF-8) a terminal made of a continuation byte. -/
def DRhs.Panics : DRhs → Prop
  | .atom _ a => a.Panics
  | .chain _ _ a as => a.Panics ∨ as.Panics
def DAtoms.Panics : DAtoms → Prop
  | .one _ a => a.Panics
  | .cons _ a as => a.Panics ∨ as.Panics
def DAtom.Panics : DAtom → Prop
  | .plain n => n.Panics
  | .pre _ n => n.Panics
  | .post _ n _ => n.Panics
def DNuc.Panics : DNuc → Prop
  | .mk c _ => c.Panics
def DCore.Panics : DCore → Prop
  | .range _ _ lo hi _ => lo.Panics ∨ hi.Panics
  | .hook _ r => r.Panics
  | .sub r => r.Panics
  | .term (.chr c) => IsCont c
  | .term _ => False
  | .str s => s.Panics
  | .ref _ => False
end

/-! ### Expressions that are translated as written -/

/-- Bounds the generator translates as written. -/
def DBound.Faithful : DBound → Prop
  | .term (.chr c) => c < 128
  | .term (.esc _) => False
  | .term .eps => False
  | .int _ => False
  | .hex ds => hexValue ds < 4294967296
/-- Terminals the generator translates as written: not `''`, and no raw newline, carriage return or tab. -/
def DTerm.Faithful : DTerm → Prop
  | .chr c => c < 128 ∧ c ≠ 10 ∧ c ≠ 13 ∧ c ≠ 9
  | .esc _ => True
  | .eps => False
/-- Strings the generator translates as written: ASCII without backslash and carriage return; no decimal literals. -/
def DStr.Faithful : DStr → Prop
  | .quoted s => ∀ c ∈ s, c < 128 ∧ c ≠ 92 ∧ c ≠ 13
  | .hex ds => hexValue ds < 128 ∧ hexValue ds ≠ 34 ∧ hexValue ds ≠ 92 ∧ hexValue ds ≠ 13
  | .int _ => False

mutual
def DRhs.Faithful : DRhs → Prop
  | .atom _ a => a.Faithful
  | .chain _ _ a as => a.Faithful ∧ as.Faithful
def DAtoms.Faithful : DAtoms → Prop
  | .one _ a => a.Faithful
  | .cons _ a as => a.Faithful ∧ as.Faithful
def DAtom.Faithful : DAtom → Prop
  | .plain n => n.Faithful
  | .pre _ n => n.Faithful
  | .post _ n _ => n.Faithful
def DNuc.Faithful : DNuc → Prop
  | .mk c _ => c.Faithful
def DCore.Faithful : DCore → Prop
  | .range _ _ lo hi _ => lo.Faithful ∧ hi.Faithful
  | .hook _ r => r.Faithful
  | .sub r => r.Faithful
  | .term t => t.Faithful
  | .str s => s.Faithful
  | .ref _ => True
end

end PP.Gen
