import Verif.Spec.Mini.Interp
import Verif.Model.Gen.BinaryTree

/-! # The part of a parser crate that its user writes -/
namespace PP.Mini
open PP.Gen

/-- user_state.rs and hooked_calls.rs: the items; the names of the hooked calls, and the closures they make; the value of `UserState::new()`;
and which values represent a user state of the model. -/
structure User (U : Type) where
  items : Prog
  hooks : List Bytes
  clo : Bytes → List Val → Val
  init : Val
  ur : U → Val → Prop

/-- A crate without hooked calls: user_state.rs and hooked_calls.rs as they are in parser/src. -/
def plainUser (U : Type) (items : Prog) : User U where
  items := items
  hooks := []
  clo _ _ := .unit
  init := .struct n!"UserState" []
  ur _ v := v = .struct n!"UserState" []

end PP.Mini
