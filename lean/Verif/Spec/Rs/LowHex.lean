import Verif.Spec.Cst
import Verif.Model.Gen.Constructor

/-! # Specification: grammars without hexadecimal strings above 0x7F

A hexadecimal literal that stands for itself (not as a bound of a range), such as `0x1F600`, is printed with `{:?}` of a `Vec<char>`, which is
outside of the fragment of Rust that `Spec/Rs` executes. -/
namespace PP.Gen

/-- The string is not a hexadecimal literal of 128 or more. -/
def DStr.Low : DStr → Prop
  | .hex ds => ∀ v, fromHex ds = some v → v < 128
  | _ => True

mutual
def DRhs.Low : DRhs → Prop
  | .atom _ a => a.Low
  | .chain _ _ a as => a.Low ∧ as.Low
def DAtoms.Low : DAtoms → Prop
  | .one _ a => a.Low
  | .cons _ a as => a.Low ∧ as.Low
def DAtom.Low : DAtom → Prop
  | .plain n => n.Low
  | .pre _ n => n.Low
  | .post _ n _ => n.Low
def DNuc.Low : DNuc → Prop
  | .mk c _ => c.Low
def DCore.Low : DCore → Prop
  | .hook _ r => r.Low
  | .sub r => r.Low
  | .str s => s.Low
  | _ => True
end

def DGrammar.Low (g : DGrammar) : Prop := ∀ r ∈ g, r.rhs.Low

/-- The bytes `0x` do not occur one after the other. -/
def NoHex (s : Bytes) : Prop := ∀ a b, s ≠ a ++ 48 :: 120 :: b

end PP.Gen
