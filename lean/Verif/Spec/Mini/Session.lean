import Verif.Spec.Mini.ByHand

/-! # Specification: several calls by hand on one context

A context outlives a call: the memo table, the record of left recursion and the tree of nodes that earlier calls left behind are there when the next
expression is called. -/
namespace PP.Mini
open PP.Gen
variable {R : Type}

/-- The calls, each an expression and a position, one after another with the same user state, context and source: each closure is made and called with `Key(0)`. -/
def callAll (Q : Prog) (n : Nat) (vn fn : R → Name) (u c : Nat) (source : Val) : List (Expr R × Nat) → Heap → Res (List Val)
  | [], h => .ok [] h
  | (e, pos) :: l, h =>
    (make Q n vn fn u c e h).bind fun closure h =>
    (run Q n closure [encKey 0, source, .int pos] h).bind fun result h =>
    (callAll Q n vn fn u c source l h).bind fun results h => .ok (result :: results) h

/-- `runByHand` (Spec/Mini/ByHand.lean) with any number of calls on the one context: their results and, last, the tree of nodes. -/
def runSession (Q : Prog) (n : Nat) (vn fn : R → Name) (text : Bytes) (calls : List (Expr R × Nat)) : Res Val :=
  match Q.const? n!"RULES_SIZE" with
  | none => .stuck
  | some k =>
    (run Q n (.fn (some n!"Source") n!"new") [.str text] []).bind fun source h =>
    (run Q n (.fn (some n!"BasicContext") n!"new") [.int (text.length % 4294967296), .int k] h).bind fun context h =>
    let c := h.length
    (run Q n (.fn (some n!"UserState") n!"new") [] (h ++ [context])).bind fun user h =>
    let u := h.length
    (callAll Q n vn fn u c source calls (h ++ [user])).bind fun results h =>
    match h[c]? with
    | some context => (run Q n (.fn (some n!"BasicContext") n!"get_publisher") [context] h).bind fun tree h => .ok (.tuple [.vec results, tree]) h
    | none => .stuck

/-- One answer, `(bool, u32)`. -/
def encAnswer (x : Bool × Nat) : Val := .tuple [.bool x.1, .int x.2]

section
variable {U : Type} [DecidableEq R]

/-- The calls of a session, one after another, in the model. -/
def evalAll (P : Parser R U) (src : Source) (m : Nat) : List (Expr R × Nat) → St R U → Out (List (Bool × Nat) × St R U)
  | [], st => .ok ([], st)
  | (e, pos) :: l, st => eval P src m e 0 pos st >>= fun x => evalAll P src m l x.2.2 >>= fun y => .ok ((x.1, x.2.1) :: y.1, y.2)

/-- What the session sees of the model's results. -/
def encSession (vn : R → Name) (x : List (Bool × Nat) × St R U) : Val := .tuple [.vec (x.1.map encAnswer), encPub vn x.2.pub]

/-- Sessions do what the model's evaluator does, call after call. -/
structure ComputesSessions (Q : Prog) (P : Parser R U) (vn fn : R → Name) : Prop where
  sound : ∀ text calls n v h, (∀ c ∈ calls, ByHand c.1) → runSession Q n vn fn text calls = .ok v h →
    ∃ m x, evalAll P ⟨text⟩ m calls (St.new P.grammar P.userInit) = .ok x ∧ v = encSession vn x
  complete : ∀ text calls m x, (∀ c ∈ calls, ByHand c.1) → evalAll P ⟨text⟩ m calls (St.new P.grammar P.userInit) = .ok x →
    ∃ N, ∀ n, N ≤ n → ∃ h, runSession Q n vn fn text calls = .ok (encSession vn x) h
  panics : ∀ text calls, (∀ c ∈ calls, ByHand c.1) → ((∃ N, ∀ n, N ≤ n → runSession Q n vn fn text calls = .panic) ↔
    ∃ m p, evalAll P ⟨text⟩ m calls (St.new P.grammar P.userInit) = .panic p)
  total : ∀ text calls n, (∀ c ∈ calls, ByHand c.1) → runSession Q n vn fn text calls = .oof ∨ runSession Q n vn fn text calls = .panic ∨
    ∃ v h, runSession Q n vn fn text calls = .ok v h
end

end PP.Mini
