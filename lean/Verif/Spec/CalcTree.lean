import Verif.Spec.Calc
import Verif.Spec.Tree
import Verif.Model.Parsers

/-! # Specification: the trees of the calculator examples -/
namespace PP
namespace Calc

/-- The tree of a sum written at `p`. -/
def Sum1.tree (p : Nat) : Sum1 → Tree Ex1
  | num n => .node .r_expr (some (p, p + n.text.length)) [.node .r_integer (some (p, p + n.text.length)) []]
  | add s n => .node .r_expr (some (p, p + (s.text.length + 1 + n.text.length)))
      [.node .r_addition (some (p, p + (s.text.length + 1 + n.text.length)))
        [s.tree p, .node .r_integer (some (p + s.text.length + 1, p + s.text.length + 1 + n.text.length)) []]]
  | sub s n => .node .r_expr (some (p, p + (s.text.length + 1 + n.text.length)))
      [.node .r_subtraction (some (p, p + (s.text.length + 1 + n.text.length)))
        [s.tree p, .node .r_integer (some (p + s.text.length + 1, p + s.text.length + 1 + n.text.length)) []]]

/-- The rules of examples 3 and 4.  Example 3 has no `power` and `powerExpr`. -/
structure MathRules (R : Type) where
  (sign integer fraction exponent number : R)
  (addition subtraction multiplication division parentheses : R)
  (expr term factor power powerExpr : R)

variable {R : Type} {w : Bool}

/-- The span of a text written at `p`. -/
def spanOf (p : Nat) (l : List UInt8) : Option (Nat × Nat) := some (p, p + l.length)

/-- A missing sign leaves no node. -/
def Sign.trees (C : MathRules R) (p : Nat) : Sign → List (Tree R)
  | .absent => []
  | s => [.node C.sign (spanOf p s.text) []]

def Number.tree (C : MathRules R) (p : Nat) (n : Number) : Tree R :=
  .node C.number (spanOf p n.text)
    (.node C.integer (spanOf p n.intText) (n.sign.trees C p) ::
      ((match n.frac with
        | none => []
        | some x => [.node C.fraction (spanOf (p + n.intText.length) x.text) []]) ++
       (match n.exp with
        | none => []
        | some x => [.node C.exponent (spanOf (p + n.intText.length + n.fracText.length) x.text)
            (x.sign.trees C (p + n.intText.length + n.fracText.length + 1))])))

mutual
/-- The tree of an expression written at `p`. -/
def MExpr.tree (C : MathRules R) (p : Nat) : MExpr w → Tree R
  | .term t => .node C.expr (spanOf p (MExpr.term t).text) [t.tree C p]
  | .add e t => .node C.expr (spanOf p (MExpr.add e t).text)
      [.node C.addition (spanOf p (MExpr.add e t).text) [e.tree C p, t.tree C (p + e.text.length + 1)]]
  | .sub e t => .node C.expr (spanOf p (MExpr.sub e t).text)
      [.node C.subtraction (spanOf p (MExpr.sub e t).text) [e.tree C p, t.tree C (p + e.text.length + 1)]]
def MTerm.tree (C : MathRules R) (p : Nat) : MTerm w → Tree R
  | .one o => .node C.term (spanOf p (MTerm.one o).text) [o.tree C p]
  | .mul t o => .node C.term (spanOf p (MTerm.mul t o).text)
      [.node C.multiplication (spanOf p (MTerm.mul t o).text) [t.tree C p, o.tree C (p + t.text.length + 1)]]
  | .div t o => .node C.term (spanOf p (MTerm.div t o).text)
      [.node C.division (spanOf p (MTerm.div t o).text) [t.tree C p, o.tree C (p + t.text.length + 1)]]
/-- Without powers there is no node between term and factor. -/
def MPower.tree (C : MathRules R) (p : Nat) : MPower w → Tree R
  | .fac f => if w then .node C.powerExpr (spanOf p (MPower.fac f).text) [f.tree C p] else f.tree C p
  | .pow h f o => .node C.powerExpr (spanOf p (MPower.pow h f o).text)
      [.node C.power (spanOf p (MPower.pow h f o).text) [f.tree C p, o.tree C (p + f.text.length + 1)]]
def MFactor.tree (C : MathRules R) (p : Nat) : MFactor w → Tree R
  | .num n => .node C.factor (spanOf p n.text) [n.tree C p]
  | .paren e => .node C.factor (spanOf p (MFactor.paren e).text)
      [.node C.parentheses (spanOf p (MFactor.paren e).text) [e.tree C (p + 1)]]
end

end Calc

end PP
