import Verif.Lemmas.Mini.Closures
import Verif.Spec.Link

/-! # The functions of `parser.rs`, as `Spec/RustText` reads them, in the fragment of Rust that is executed -/
namespace PP.Mini
open PP.Gen
attribute [local congr] Res.bind_congr loopN_congr forN_congr

def exsOf : List Ex → Exs
  | [] => .nil
  | e :: es => .cons e (exsOf es)

def argEx : Text.Arg → Ex
  | .ref x => .ref (.path [nameOf x])
  | .var x => .path [nameOf x]
  | .variant v => .path [n!"Rules", nameOf v]
  | .num k => .int k
  | .byte s => .byte s
  | .bytes s => .bytes s

def callEx (f : Bytes) (args : List Text.Arg) : Ex := .call (.path [nameOf f]) (exsOf (args.map argEx))

variable (br : Bool)

def rhsEx : Text.Rhs → Ex
  | .call f args => callEx f args
  | .closure f args => .clo [n!"parent", n!"source", n!"position"] (cloBody br (callEx f args))
  | .variants vs => .meth (.array (exsOf (vs.map fun v => .path [n!"Rules", nameOf v]))) n!"to_vec" .nil

def blkOf : List Text.Let → Bytes → Blk
  | [], tail => .tail (callEx tail [.var (utf8Of "parent"), .var (utf8Of "source"), .var (utf8Of "position")])
  | s :: ss, tail => .letS (.var (nameOf s.x)) false (rhsEx br s.rhs) (blkOf ss tail)

def fnOf (f : Text.Fun) : Fn :=
  ⟨none, nameOf f.name, .none, [n!"user_state", n!"parent", n!"context", n!"source", n!"position"], some (.block (blkOf br f.lets f.tail))⟩

/-! ## Names -/

/-- No byte is 0. -/
def Plain (x : Bytes) : Prop := ∀ c ∈ x, c ≠ 0
instance (x : Bytes) : Decidable (Plain x) := inferInstanceAs (Decidable (∀ c ∈ x, c ≠ 0))

def numOf (bs : Bytes) : Nat := bs.foldl (fun a c => a * 256 + c.toNat) 0
theorem numOf_snoc (x : Bytes) (c : UInt8) : numOf (x ++ [c]) = numOf x * 256 + c.toNat := by simp [numOf]

theorem numOf_pos {x : Bytes} {c : UInt8} (h : c ≠ 0) : 0 < numOf (x ++ [c]) := by
  rw [numOf_snoc]
  have : c.toNat ≠ 0 := fun e => h (UInt8.toNat_inj.mp (by simpa using e))
  omega

theorem snoc_cases (x : Bytes) : x = [] ∨ ∃ y c, x = y ++ [c] := by
  rcases List.eq_nil_or_concat x with h | ⟨y, c, h⟩
  · exact .inl h
  · exact .inr ⟨y, c, by simpa using h⟩

theorem numOf_inj : ∀ {x y : Bytes}, Plain x → Plain y → numOf x = numOf y → x = y := by
  intro x
  generalize hn : x.length = n
  induction n generalizing x with
  | zero =>
    intro y hx hy h
    obtain rfl := List.length_eq_zero_iff.mp hn
    rcases snoc_cases y with rfl | ⟨y, c, rfl⟩
    · rfl
    · have := numOf_pos (x := y) (hy c (by simp)); rw [← h] at this; exact absurd this (by simp [numOf])
  | succ n ih =>
    intro y hx hy h
    rcases snoc_cases x with rfl | ⟨x, c, rfl⟩
    · simp at hn
    · rcases snoc_cases y with rfl | ⟨y, c', rfl⟩
      · have := numOf_pos (x := x) (hx c (by simp)); rw [h] at this; exact absurd this (by simp [numOf])
      · rw [numOf_snoc, numOf_snoc] at h
        have h1 := c.toNat_lt; have h2 := c'.toNat_lt
        have e1 : numOf x = numOf y := by omega
        have e2 : c = c' := UInt8.toNat_inj.mp (by omega)
        rw [ih (by simpa using hn) (fun c hc => hx c (by simp [hc])) (fun c hc => hy c (by simp [hc])) e1, e2]

theorem nameOf_inj {x y : Bytes} (hx : Plain x) (hy : Plain y) (h : nameOf x = nameOf y) : x = y := numOf_inj hx hy h

/-- The closure with rules called by the names of their functions. -/
def named {R : Type} (name : R → Bytes) : Expr R → Expr Bytes
  | .andPredicate a => .andPredicate (named name a)
  | .notPredicate a => .notPredicate (named name a)
  | .oneOrMore a => .oneOrMore (named name a)
  | .zeroOrMore a => .zeroOrMore (named name a)
  | .optional a => .optional (named name a)
  | .subexpression a => .subexpression (named name a)
  | .hooked h a => .hooked h (named name a)
  | .orderedChoice a b => .orderedChoice (named name a) (named name b)
  | .sequence a b => .sequence (named name a) (named name b)
  | .terminal c => .terminal c
  | .stringTerminal d => .stringTerminal d
  | .matchRange lo hi => .matchRange lo hi
  | .varName r => .varName (name r)
  | .inlined r => .inlined (name r)
  | .varNameLR l r => .varNameLR (l.map name) (name r)

end PP.Mini
