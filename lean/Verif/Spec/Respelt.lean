import Verif.Spec.LeftRec

/-! # Specification: the same grammar, written differently

Other white space, other comments, the rules in another order, and other names for the rules. -/
namespace PP.Gen

mutual
/-- Without white space, and with every reference `<x>` replaced by `<m x>`. -/
def DRhs.respell (m : Bytes → Bytes) : DRhs → DRhs
  | .atom _ a => .atom [] (a.respell m)
  | .chain o _ a as => .chain o [] (a.respell m) (as.respell m)
def DAtoms.respell (m : Bytes → Bytes) : DAtoms → DAtoms
  | .one _ a => .one [] (a.respell m)
  | .cons _ a as => .cons [] (a.respell m) (as.respell m)
def DAtom.respell (m : Bytes → Bytes) : DAtom → DAtom
  | .plain n => .plain (n.respell m)
  | .pre o n => .pre o (n.respell m)
  | .post o n _ => .post o (n.respell m) []
def DNuc.respell (m : Bytes → Bytes) : DNuc → DNuc
  | .mk c _ => .mk (c.respell m) []
def DCore.respell (m : Bytes → Bytes) : DCore → DCore
  | .range _ _ lo hi _ => .range [] [] lo hi []
  | .hook name r => .hook name (r.respell m)
  | .sub r => .sub (r.respell m)
  | .term t => .term t
  | .str s => .str s
  | .ref x => .ref (m x)
end

/-- The same rule, but for white space, comments and names. -/
def DRule.Respelt (m : Bytes → Bytes) (r r' : DRule) : Prop :=
  r'.name = m r.name ∧ r'.sep.isInline = r.sep.isInline ∧ r'.rhs.respell id = r.rhs.respell m

/-- The same rules, in any order; different names stay different. -/
structure DGrammar.Respelt (m : Bytes → Bytes) (g g' : DGrammar) : Prop where
  there : ∀ r ∈ g, ∃ r' ∈ g', r.Respelt m r'
  back : ∀ r' ∈ g', ∃ r ∈ g, r.Respelt m r'
  inj : ∀ r ∈ g, ∀ s ∈ g, m r.name = m s.name → r.name = s.name

end PP.Gen
