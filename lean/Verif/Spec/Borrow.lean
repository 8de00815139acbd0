import Verif.Model.Borrow

/-! # Specification: hooks that respect the borrow rules -/
namespace PP
variable {R U : Type}

/-- The hook calls its closure, and returns, only while it holds no borrow — as long as its closure gives back free cells. -/
def HookProg.Polite : HookProg (U × Cells) → Prop
  | .ret u _ _ => u.2 = .new
  | .panic => True
  | .call u _ k => u.2 = .new ∧ ∀ u' b q, (k (u', .new) b q).Polite

/-- All hooks are polite when called with free cells. -/
structure Parser.Polite (P : Parser R (U × Cells)) (src : Source) : Prop where
  init : P.userInit.2 = .new
  hook : ∀ name pos u, (P.hook name src pos (u, .new)).Polite

/-- The hook without the flags. -/
def HookProg.strip : HookProg (U × Cells) → HookProg U
  | .ret u b q => .ret u.1 b q
  | .panic => .panic
  | .call u p k => .call u.1 p fun u' b q => (k (u', .new) b q).strip

/-- The parser without the flags. -/
def Parser.strip (P : Parser R (U × Cells)) : Parser R U where
  body := P.body
  grammar := P.grammar
  hook name src pos u := (P.hook name src pos (u, .new)).strip
  userInit := P.userInit.1

end PP
