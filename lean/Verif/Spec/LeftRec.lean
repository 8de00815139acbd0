import Verif.Spec.Cst

/-! # Specification: leftmost references of written grammars -/
namespace PP.Gen

mutual
/-- All references, in order of writing. -/
def DRhs.refs : DRhs → List Bytes
  | .atom _ a => a.refs
  | .chain _ _ a as => a.refs ++ as.refs
def DAtoms.refs : DAtoms → List Bytes
  | .one _ a => a.refs
  | .cons _ a as => a.refs ++ as.refs
def DAtom.refs : DAtom → List Bytes
  | .plain n => n.refs
  | .pre _ n => n.refs
  | .post _ n _ => n.refs
def DNuc.refs : DNuc → List Bytes
  | .mk c _ => c.refs
def DCore.refs : DCore → List Bytes
  | .hook _ r => r.refs
  | .sub r => r.refs
  | .ref name => [name]
  | _ => []
end

mutual
/-- The leftmost references the generator looks at: of a sequence the first element only, of a choice every alternative but
the last, of `e*` and `e?` nothing. -/
def DRhs.lefts : DRhs → List Bytes
  | .atom _ a => a.lefts
  | .chain .seq _ a _ => a.lefts
  | .chain .choice _ a as => a.lefts ++ as.lefts
/-- The alternatives after the first, without the last. -/
def DAtoms.lefts : DAtoms → List Bytes
  | .one _ _ => []
  | .cons _ a as => a.lefts ++ as.lefts
def DAtom.lefts : DAtom → List Bytes
  | .plain n => n.lefts
  | .pre _ n => n.lefts
  | .post .plus n _ => n.lefts
  | .post .star _ _ => []
  | .post .opt _ _ => []
def DNuc.lefts : DNuc → List Bytes
  | .mk c _ => c.lefts
def DCore.lefts : DCore → List Bytes
  | .hook _ r => r.lefts
  | .sub r => r.lefts
  | .ref name => [name]
  | _ => []
end

/-- The rule a name stands for: the last one declared with it. -/
def DGrammar.lookup (g : DGrammar) (nm : Bytes) : Option DRule := g.reverse.find? fun r => r.name = nm

/-- `x` is declared and refers leftmost to `y`. -/
def DGrammar.Left (g : DGrammar) (x y : Bytes) : Prop := ∃ r, g.lookup x = some r ∧ y ∈ r.rhs.lefts

/-- Zero or more leftmost references lead from `x` to `y`. -/
inductive DGrammar.Leads (g : DGrammar) : Bytes → Bytes → Prop where
  | refl (x) : g.Leads x x
  | step {x y z} : g.Left x y → g.Leads y z → g.Leads x z

/-- `y` is not declared, or leads back to itself. -/
def DGrammar.Bad (g : DGrammar) (y : Bytes) : Prop := g.lookup y = none ∨ ∃ z, g.Left y z ∧ g.Leads z y

/-- What the generator calls left recursive: declared rules that lead to a cycle of leftmost references or to an undeclared
name. -/
def DGrammar.Flagged (g : DGrammar) (x : Bytes) : Prop := (∃ r, g.lookup x = some r) ∧ ∃ y, g.Leads x y ∧ g.Bad y

end PP.Gen
