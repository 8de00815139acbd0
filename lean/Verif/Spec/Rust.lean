import Verif.Model.Gen.BinaryTree
import Verif.Model.Interp

/-! # Specification: what the emitted Rust statements mean

A generated rule function is a list of `let` statements followed by a call.  Rules are identified by the name of their
generated function.  `none` means that the statements are not a Rust program with this meaning (a name is used before it is
defined, a literal is not a Rust literal, `Rules::X` does not go with the function, a function does not exist). -/
namespace PP.Gen

/-- Simple escapes of Rust byte and byte-string literals. -/
def escByte : UInt8 → Option UInt8
  | 110 => some 10 | 114 => some 13 | 116 => some 9 | 92 => some 92 | 48 => some 0 | 39 => some 39 | 34 => some 34
  | _ => none

/-- The value of `b'..'` with the given text between the quotes: one ASCII byte other than `'`, `\`, newline, carriage
return and tab, or an escape.  (`\xHH` escapes are not given a meaning; no generated literal contains one.) -/
def byteLit : Bytes → Option UInt8
  | [c] => if c < 128 ∧ c ≠ 39 ∧ c ≠ 92 ∧ c ≠ 10 ∧ c ≠ 13 ∧ c ≠ 9 then some c else none
  | [92, c] => escByte c
  | _ => none

/-- The value of `b".."` with the given text (code points) between the quotes: ASCII without `"`, carriage return, where a
backslash starts an escape.  (`\xHH` and the escaped newline are not given a meaning.) -/
def byteStr : List Nat → Option (List UInt8)
  | [] => some []
  | [c] => if c < 128 ∧ c ≠ 34 ∧ c ≠ 92 ∧ c ≠ 13 then some [UInt8.ofNat c] else none
  | c :: d :: s =>
    if c = 92 then do
      let b ← if d < 128 then escByte (UInt8.ofNat d) else none
      let bs ← byteStr s
      some (b :: bs)
    else if c < 128 ∧ c ≠ 34 ∧ c ≠ 13 then do
      let bs ← byteStr (d :: s)
      some (UInt8.ofNat c :: bs)
    else none

/-- The variables in scope: `closure_i` and `involved_set`. -/
structure Scope where
  clo : Nat → Option (Expr Bytes)
  inv : Option (List Bytes)

def Scope.empty : Scope := ⟨fun _ => none, none⟩
/-- `let closure_i = e;` (shadows an earlier one) -/
def Scope.set (s : Scope) (i : Nat) (e : Expr Bytes) : Scope := { s with clo := fun j => if j = i then some e else s.clo j }

def Unary.mk : Unary → Expr Bytes → Expr Bytes
  | .and => .andPredicate | .not => .notPredicate | .plus => .oneOrMore | .star => .zeroOrMore
  | .sub => .subexpression | .opt => .optional
def Binary.mk : Binary → Expr Bytes → Expr Bytes → Expr Bytes
  | .choice => .orderedChoice | .seq => .sequence

/-- One `let` statement. -/
def Line.step (s : Scope) : Line → Option Scope
  | .stringTerminal _ _ => none
  | .stringTerminalOptAscii i cs => do
    let d ← byteStr cs
    some (s.set i (.stringTerminal d))
  | .matchRange i lo hi => some (s.set i (.matchRange lo hi))
  | .unary op i j => do
    let e ← s.clo j
    some (s.set i (op.mk e))
  | .binary op i j k => do
    let a ← s.clo j
    let b ← s.clo k
    some (s.set i (op.mk a b))
  | .hooked i name j => do
    let e ← s.clo j
    some (s.set i (.hooked (asStr name) e))
  | .terminal i content => do
    let c ← byteLit content
    some (s.set i (.terminal c))
  | .varName i v f => if lower v = f then some (s.set i (.varName f)) else none
  | .involvedSet vs => some { s with inv := some (vs.map lower) }
  | .varNameLR i v f => do
    let inv ← s.inv
    if lower v = f then some (s.set i (.varNameLR inv f)) else none
  | .inlined i f => some (s.set i (.inlined f))
  | .exec _ => none

/-- A function body: `let` statements, then the call of a closure. -/
def execLines (s : Scope) : List Line → Option (Expr Bytes)
  | [] => none
  | [.exec i] => s.clo i
  | l :: ls => do
    let s ← l.step s
    execLines s ls

/-- The closure a line defines. -/
def Line.defines : Line → Option Nat
  | .stringTerminal i _ | .stringTerminalOptAscii i _ | .matchRange i _ _ | .unary _ i _ | .binary _ i _ _ | .hooked i _ _
  | .terminal i _ | .varName i _ _ | .varNameLR i _ _ | .inlined i _ => some i
  | .involvedSet _ | .exec _ => none
/-- The closures a line uses. -/
def Line.uses : Line → List Nat
  | .unary _ _ j | .hooked _ _ j | .exec j => [j]
  | .binary _ _ j k => [j, k]
  | _ => []

end PP.Gen
