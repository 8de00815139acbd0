import Verif.Lemmas.Mini.Whole
import Verif.Lemmas.Text.Program

/-! # Reading calls and statements of generated files with the reader of the executed fragment -/
namespace PP.Mini
open PP.Gen

/-- The identifiers at which the reader does something else than to read a path. -/
def specials : List Bytes := ["true", "false", "break", "return", "if", "loop", "for", "match", "move", "let", "mut", "Self", "None", "Some", "_"].map utf8Of

/-- An ordinary identifier. -/
structure Word (x : Bytes) : Prop where
  plain : Plain x
  ord : x ∉ specials

theorem specials_plain : ∀ x ∈ specials, Plain x := by decide +kernel
theorem specials_names : specials.map nameOf = [n!"true", n!"false", n!"break", n!"return", n!"if", n!"loop", n!"for", n!"match", n!"move", n!"let", n!"mut",
  n!"Self", n!"None", n!"Some", n!"_"] := by decide +kernel

/-- The same, of the number. -/
structure Ord (a : Name) : Prop where
  k_true : a ≠ n!"true"
  k_false : a ≠ n!"false"
  k_break : a ≠ n!"break"
  k_return : a ≠ n!"return"
  k_if : a ≠ n!"if"
  k_loop : a ≠ n!"loop"
  k_for : a ≠ n!"for"
  k_match : a ≠ n!"match"
  k_move : a ≠ n!"move"
  k_let : a ≠ n!"let"
  k_mut : a ≠ n!"mut"
  k_self : a ≠ n!"Self"
  k_none : a ≠ n!"None"
  k_some : a ≠ n!"Some"
  k_wild : a ≠ n!"_"

theorem Word.ordinary {x : Bytes} (h : Word x) : Ord (nameOf x) := by
  have : ∀ y ∈ specials.map nameOf, nameOf x ≠ y := by
    intro y hy e
    obtain ⟨z, hz, rfl⟩ := List.mem_map.mp hy
    exact h.ord (nameOf_inj h.plain (specials_plain z hz) e ▸ hz)
  rw [specials_names] at this
  simp only [List.forall_mem_cons] at this
  obtain ⟨h1, h2, h3, h4, h5, h6, h7, h8, h9, h10, h11, h12, h13, h14, h15, -⟩ := this
  exact ⟨h1, h2, h3, h4, h5, h6, h7, h8, h9, h10, h11, h12, h13, h14, h15⟩

/-- Tokens of an argument. -/
def argT : Text.Arg → List T
  | .ref x => [.p 38, .id (nameOf x)]
  | .var x => [.id (nameOf x)]
  | .variant v => [.id n!"Rules", .p 58, .p 58, .id (nameOf v)]
  | .num k => [.num k]
  | .byte s => [.byte s]
  | .bytes s => [.bytes s]

def ArgOk : Text.Arg → Prop
  | .ref x => Word x
  | .var x => Word x
  | _ => True

/-- `a, b, c` and the closing bracket. -/
def argsT (c : Nat) : List Text.Arg → List T
  | [] => [.p c]
  | [a] => argT a ++ [.p c]
  | a :: as => argT a ++ .p 44 :: argsT c as

/-- What may follow an expression. -/
def Stop (ts : List T) : Prop := ∃ c us, ts = .p c :: us ∧ (c = 44 ∨ c = 41 ∨ c = 93 ∨ c = 59 ∨ c = 125)

variable {s : Self} {st : Bool}

theorem read_stop {n : Nat} {e : Ex} {ts : List T} (h : Stop ts) : readPost s e (n + 1) ts = some (e, ts) ∧ readCast e n ts = some (e, ts) ∧
    readOp ts = none := by
  obtain ⟨c, us, rfl, rfl | rfl | rfl | rfl | rfl⟩ := h <;> cases n <;> simp [readPost, readCast, readOp]

theorem readEx_prim {n : Nat} {ts us vs : List T} {e e' : Ex} (hp : readPrim s st n ts = some (e, us)) (hq : readPost s e n us = some (e', vs)) (hs : Stop vs)
    (h1 : ∀ us, ts ≠ .p 33 :: us) (h2 : ∀ us, ts ≠ .p 42 :: us) (h3 : ∀ us, ts ≠ .p 38 :: us)
    (h4 : ∀ us, ts ≠ .p 45 :: us) :
    readEx s st (n + 3) ts = some (e', vs) := by
  have hc := (read_stop (s := s) (n := n) (e := e') hs).2.1
  have ho := (read_stop (s := s) (n := n) (e := e') hs).2.2
  have hu : readUnary s st (n + 1) ts = some (e', vs) := by
    unfold readUnary
    split
    · rename_i h; cases h
    · rename_i h; cases h; exact absurd rfl (h1 _)
    · exact absurd rfl (h4 _)
    · exact absurd rfl (h2 _)
    · exact absurd rfl (h3 _)
    · rename_i h _ _ _ _; cases h; simp [hp, hq, hc]
  rw [readEx, readBin, hu]
  simp only [Option.bind_eq_bind, Option.bind_some]
  rw [readBinTail, ho]
  simp only [Option.bind_some]
  obtain ⟨c, us, rfl, rfl | rfl | rfl | rfl | rfl⟩ := hs <;> simp
/-- After a path: an argument list, or the end. -/
def PathEnd (ts : List T) : Prop := ∃ c us, ts = .p c :: us ∧ (c = 40 ∨ c = 44 ∨ c = 41 ∨ c = 93 ∨ c = 59 ∨ c = 125)

theorem Stop.pathEnd {ts : List T} (h : Stop ts) : PathEnd ts := by
  obtain ⟨c, us, rfl, h⟩ := h
  exact ⟨c, us, rfl, .inr h⟩

theorem readPath_end {n : Nat} {acc : List Name} {ts : List T} (h : PathEnd ts) : readPath (n + 1) acc ts = some (acc.reverse, ts) := by
  obtain ⟨c, us, rfl, rfl | rfl | rfl | rfl | rfl | rfl⟩ := h <;> simp [readPath]

theorem prim_word {n : Nat} {a : Name} {ts : List T} (ha : Ord a) (h : PathEnd ts) : readPrim s st (n + 2) (.id a :: ts) = some (.path [a], ts) := by
  simp only [readPrim, ha.k_true, ha.k_false, ha.k_break, ha.k_return, ha.k_if, ha.k_loop, ha.k_for, ha.k_match, ha.k_move, if_false, readPath_end h,
    Option.bind_eq_bind, Option.bind_some, List.reverse_cons, List.reverse_nil, List.nil_append, Self.resolve, ha.k_self]
  obtain ⟨c, us, rfl, rfl | rfl | rfl | rfl | rfl | rfl⟩ := h <;> simp

theorem prim_variant {n : Nat} {v : Name} {ts : List T} (h : PathEnd ts) :
    readPrim s st (n + 3) (.id n!"Rules" :: .p 58 :: .p 58 :: .id v :: ts) = some (.path [n!"Rules", v], ts) := by
  simp [readPrim, readPath, readPath_end h, Self.resolve]

theorem post_stop {n : Nat} {e : Ex} {ts : List T} (h : Stop ts) : readPost s e (n + 1) ts = some (e, ts) := (read_stop h).1

theorem ex_word {n : Nat} {a : Name} {ts : List T} (ha : Ord a) (h : Stop ts) : readEx s st (n + 5) (.id a :: ts) = some (.path [a], ts) :=
  readEx_prim (n := n + 2) (prim_word ha h.pathEnd) (post_stop h) h (by simp) (by simp) (by simp) (by simp)

theorem ex_ref {n : Nat} {a : Name} {ts : List T} (ha : Ord a) (h : Stop ts) : readEx s st (n + 6) (.p 38 :: .id a :: ts) = some (.ref (.path [a]), ts) := by
  have hc := (read_stop (s := s) (n := n) (e := .path [a]) h).2.1
  have ho := (read_stop (s := s) (n := n) (e := .path [a]) h).2.2
  have hu : readUnary s st (n + 4) (.p 38 :: .id a :: ts) = some (.ref (.path [a]), ts) := by
    rw [readUnary]
    simp only [ha.k_mut, if_false]
    rw [readUnary, prim_word (n := n) ha h.pathEnd]
    · simp only [Option.bind_eq_bind, Option.bind_some, post_stop h]
      rw [(read_stop (s := s) (n := n + 2) (e := .path [a]) h).2.1]
      rfl
    · simp
    · simp
    · simp
    · simp
  rw [readEx, readBin, hu]
  simp only [Option.bind_eq_bind, Option.bind_some]
  rw [readBinTail, ho]
  simp only [Option.bind_some]
  obtain ⟨c, us, rfl, rfl | rfl | rfl | rfl | rfl⟩ := h <;> simp

theorem ex_arg {n : Nat} {a : Text.Arg} {ts : List T} (ha : ArgOk a) (h : Stop ts) : readEx s st (n + 6) (argT a ++ ts) = some (argEx a, ts) := by
  cases a with
  | ref x => exact ex_ref ha.ordinary h
  | var x => exact ex_word (n := n + 1) ha.ordinary h
  | variant v => exact readEx_prim (n := n + 3) (prim_variant h.pathEnd) (post_stop h) h (by simp [argT]) (by simp [argT]) (by simp [argT]) (by simp [argT])
  | num k => exact readEx_prim (n := n + 3) (by simp [argT, argEx, readPrim]) (post_stop h) h (by simp [argT]) (by simp [argT]) (by simp [argT]) (by simp [argT])
  | byte k => exact readEx_prim (n := n + 3) (by simp [argT, argEx, readPrim]) (post_stop h) h (by simp [argT]) (by simp [argT]) (by simp [argT]) (by simp [argT])
  | bytes k => exact readEx_prim (n := n + 3) (by simp [argT, argEx, readPrim]) (post_stop h) h (by simp [argT]) (by simp [argT]) (by simp [argT]) (by simp [argT])

theorem arg_open (c : Nat) (hc : c = 41 ∨ c = 93) (a : Text.Arg) (ts : List T) : expect (.p c) (argT a ++ ts) = none := by
  cases a <;> simp [argT, expect] <;> omega

theorem args_read {c : Nat} (hc : c = 41 ∨ c = 93) : ∀ {as : List Text.Arg} {n : Nat} {ts : List T}, (∀ a ∈ as, ArgOk a) → as.length + 7 ≤ n →
    readArgs s c n (argsT c as ++ ts) = some (exsOf (as.map argEx), ts)
  | [], n + 1, ts, _, _ => by simp [argsT, readArgs, expect, exsOf]
  | [a], n + 7, ts, ha, _ => by
    have hs : Stop (.p c :: ts) := ⟨c, ts, rfl, by omega⟩
    rw [readArgs]
    simp only [argsT, List.append_assoc, List.cons_append, List.nil_append, arg_open c hc, ex_arg (ha a (by simp)) hs, Option.bind_eq_bind, Option.bind_some]
    rcases hc with rfl | rfl <;> simp [expect, exsOf]
  | a :: b :: as, n + 8, ts, ha, hn => by
    have hs : Stop (.p 44 :: (argsT c (b :: as) ++ ts)) := ⟨44, _, rfl, .inl rfl⟩
    have ih := args_read hc (as := b :: as) (n := n + 7) (ts := ts) (fun x hx => ha x (by simp [hx])) (by simp at hn ⊢; omega)
    rw [readArgs]
    simp only [argsT, List.append_assoc, List.cons_append, arg_open c hc, ex_arg (n := n + 1) (ha a (by simp)) hs, Option.bind_eq_bind, Option.bind_some, ih]
    simp [exsOf]

/-- `f(…)` -/
theorem ex_call {n : Nat} {f : Bytes} {as : List Text.Arg} {ts : List T} (hf : Word f) (ha : ∀ a ∈ as, ArgOk a) (h : Stop ts) (hn : as.length + 11 ≤ n) :
    readEx s st n (.id (nameOf f) :: .p 40 :: (argsT 41 as ++ ts)) = some (callEx f as, ts) := by
  obtain ⟨n, rfl⟩ : ∃ k, n = k + 6 := ⟨n - 6, by omega⟩
  refine readEx_prim (n := n + 3) (prim_word (n := n + 1) hf.ordinary ⟨40, _, rfl, .inl rfl⟩) ?_ h (by simp) (by simp) (by simp) (by simp)
  simp only [readPost, blockLike, Bool.false_eq_true, if_false, args_read (.inl rfl) ha (n := n + 2) (by omega), Option.bind_eq_bind, Option.bind_some]
  exact post_stop h

end PP.Mini
