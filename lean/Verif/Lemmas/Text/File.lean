import Verif.Lemmas.Text.Line

/-! # The tokens of the generated files -/
namespace PP.Gen.Text
open PP.Run

def commentText : Option (List Bytes) → Bytes
  | none => []
  | some ls => (ls.map fun l => utf8Of "\t// " ++ l ++ utf8Of "\n").flatten

theorem run_commentLine {l : Bytes} (h : (10 : UInt8) ∉ l) : run .comment l = some ([], .comment) := by
  induction l with
  | nil => rfl
  | cons c cs ih =>
    simp only [List.mem_cons, not_or] at h
    exact run_silent (m1 := .comment) (by simp [step, Ne.symm h.1]) (ih h.2)

theorem comment_lex {c : Option (List Bytes)} (h : ∀ ls, c = some ls → ∀ l ∈ ls, (10 : UInt8) ∉ l) : Lx .code (commentText c) [] .code := by
  cases c with
  | none => rfl
  | some ls =>
    replace h := h ls rfl
    simp only [commentText]
    induction ls with
    | nil => rfl
    | cons l ls ih =>
      have h1 : Lx .code (utf8Of "\t// ") [] .comment := by decide +kernel
      have h2 : Lx .comment (utf8Of "\n") [] .code := by decide +kernel
      have := ((h1.app (run_commentLine (h l (by simp)))).app h2).app (ih fun x hx => h x (by simp [hx]))
      simpa using this

/-- The tokens of a function's body. -/
def bodyToks (ls : List Line) (i : Nat) : List Tok := (ls.map fun l => lineToks l ++ [.p 59]).flatten ++ lineToks (.exec i)

/-- The tokens of a function. -/
def funToks (name : Bytes) (ls : List Line) (i : Nat) : List Tok :=
  toks "#[allow(dead_code)] pub fn" ++ .id name ::
    (toks "<T: Context>(user_state: &RefCell<UserState>, parent: Key, context: &RefCell<T>, source: &Source, position: u32) -> (bool, u32) {" ++
      (bodyToks ls i ++ [.p 125]))

/-- What has to hold of a function for its text to be read. -/
structure CodeOk (k : RuleCode) (ls : List Line) (i : Nat) : Prop where
  lines : k.lines = ls ++ [.exec i]
  name : IsIdent k.name
  comment : ∀ cs, k.comment = some cs → ∀ l ∈ cs, (10 : UInt8) ∉ l
  ok : ∀ l ∈ ls, LineOk l
  body : ∀ l ∈ ls, ∀ i, l ≠ .exec i

theorem lines_lex {ls : List Line} (h : ∀ l ∈ ls, LineOk l) (h' : ∀ l ∈ ls, ∀ i, l ≠ .exec i) :
    Lx .code (ls.map fun l => utf8Of "\t" ++ l.text ++ utf8Of "\n").flatten (ls.map fun l => lineToks l ++ [.p 59]).flatten .code := by
  induction ls with
  | nil => rfl
  | cons l ls ih =>
    have h1 : Lx .code (utf8Of "\t") [] .code := by decide +kernel
    have h2 : Lx .code (utf8Of "\n") [] .code := by decide +kernel
    have := ((h1.app (line_lex (h l (by simp)) (h' l (by simp)))).app h2).app (ih (fun x hx => h x (by simp [hx])) fun x hx => h' x (by simp [hx]))
    simpa using this

theorem fun_lex {k : RuleCode} {ls : List Line} {i : Nat} (h : CodeOk k ls i) : Lx .code k.text (funToks k.name ls i) .code := by
  have e : k.text = utf8Of "#[allow(dead_code)]\npub fn " ++ (k.name ++
      (utf8Of "<T: Context>(user_state: &RefCell<UserState>, parent: Key, context: &RefCell<T>, source: &Source, position: u32) -> (bool, u32) {" ++
      (utf8Of "\n" ++ (commentText k.comment ++ (utf8Of "\n" ++ ((ls.map fun l => utf8Of "\t" ++ l.text ++ utf8Of "\n").flatten ++
      (utf8Of "\t" ++ ((Line.exec i).text ++ (utf8Of "\n" ++ utf8Of "\n}\n"))))))))) := by
    unfold RuleCode.text commentText
    rw [h.lines]
    cases k.comment <;> simp
  rw [e]
  have h1 : Lx .code (utf8Of "\t") [] .code := by decide +kernel
  have h2 : Lx .code (utf8Of "\n") [] .code := by decide +kernel
  have h3 : Lx .code (utf8Of "\n}\n") [.p 125] .code := by decide +kernel
  have h4 := h2.app ((comment_lex h.comment).app (h2.app ((lines_lex h.ok h.body).app (h1.app ((exec_lex i).app (h2.app h3))))))
  have h5 : Lx .code (utf8Of "#[allow(dead_code)]\npub fn ") (toks "#[allow(dead_code)] pub fn") .code := by decide +kernel
  have h6 : Lx .code (utf8Of "<T: Context>(user_state: &RefCell<UserState>, parent: Key, context: &RefCell<T>, source: &Source, position: u32) -> (bool, u32) {")
    (toks "<T: Context>(user_state: &RefCell<UserState>, parent: Key, context: &RefCell<T>, source: &Source, position: u32) -> (bool, u32) {") .code := by
    decide +kernel
  have := h5.app (Lx.name h.name (delim_append (by decide +kernel)) (h6.app h4))
  simpa [funToks, bodyToks] using this

/-- `a, b, c` -/
def nameToks : List Bytes → List Tok
  | [] => []
  | [v] => [.id v]
  | v :: vs => .id v :: .p 44 :: nameToks vs

def hookToks (hooks : List Bytes) : List Tok :=
  if hooks.isEmpty then [] else toks "use crate::hooked_calls::{" ++ (nameToks hooks ++ toks "};")

def headToks : List Tok :=
  toks "#![allow(non_camel_case_types)] #![allow(unused_variables)] #![allow(unused_imports)] use crate::*; use std::cell::RefCell;"

theorem names_lex {vs : List Bytes} (h : ∀ v ∈ vs, IsIdent v) {b : Bytes} {ts : List Tok} {m : Mode} (hd : delimHead b = true)
    (hb : Lx .code b ts m) : Lx .code (List.intercalate (utf8Of ",") vs ++ b) (nameToks vs ++ ts) m := by
  induction vs with
  | nil => exact hb
  | cons v vs ih =>
    have hv := h v (by simp)
    cases vs with
    | nil =>
      have := Lx.name hv hd hb
      simpa [List.intercalate, nameToks] using this
    | cons w ws =>
      have ih := ih fun x hx => h x (by simp [hx])
      have e : List.intercalate (utf8Of ",") (v :: w :: ws) ++ b = v ++ (utf8Of "," ++ (List.intercalate (utf8Of ",") (w :: ws) ++ b)) := by
        simp [List.intercalate]
      rw [e]
      have h1 : Lx .code (utf8Of ",") [.p 44] .code := by decide +kernel
      exact Lx.name hv (delim_append (by decide +kernel)) (h1.app ih)

theorem hook_lex {hooks : List Bytes} (h : ∀ v ∈ hooks, IsIdent v) : Lx .code (hookImport hooks) (hookToks hooks) .code := by
  unfold hookImport hookToks
  split
  · rfl
  · have h1 : Lx .code (utf8Of "use crate::hooked_calls::{") (toks "use crate::hooked_calls::{") .code := by decide +kernel
    have := h1.app (names_lex h (b := utf8Of "};") (ts := toks "};") (m := .code) (by decide +kernel) (by decide +kernel))
    simpa using this

/-- Codes, each with its statements and the closure it calls. -/
inductive CodesOk : List RuleCode → List (List Line × Nat) → Prop where
  | nil : CodesOk [] []
  | cons {k ls i ks bs} : CodeOk k ls i → CodesOk ks bs → CodesOk (k :: ks) ((ls, i) :: bs)

def allToks : List RuleCode → List (List Line × Nat) → List Tok
  | k :: ks, (ls, i) :: bs => funToks k.name ls i ++ allToks ks bs
  | _, _ => []

theorem codes_lex {ks bs} (h : CodesOk ks bs) : Lx .code (ks.map RuleCode.text).flatten (allToks ks bs) .code := by
  induction h with
  | nil => rfl
  | cons h _ ih => exact (fun_lex h).app ih

theorem parser_lex {c : GeneratedCode} {bs} (h : CodesOk c.rules bs) (hh : ∀ v ∈ c.hookImports, IsIdent v) :
    lex (parserFile c) = some (headToks ++ (hookToks c.hookImports ++ allToks c.rules bs)) := by
  have h1 : Lx .code parserHeader headToks .code := by decide +kernel
  have h2 : Lx .code (utf8Of "\n") [] .code := by decide +kernel
  have := ((h1.app (hook_lex hh)).app h2).app (codes_lex h)
  unfold lex
  rw [parserFile, this]
  simp [finish]

/-! ## `rules.rs` -/

def variantLines (vs : List Bytes) : List Tok := (vs.map fun v => [.id v, .p 44]).flatten

theorem rules_lex {c : GeneratedCode} (h : ∀ v ∈ c.variants, IsIdent v) :
    lex (rulesFile c) = some (rulesHead ++ .num (decimal c.numRules) :: (rulesHead2 ++ (variantLines c.variants ++ [.p 125]))) := by
  have h1 : Lx .code rulesHeader rulesHead .code := by decide +kernel
  have h2 : Lx .code rulesHeader2 rulesHead2 .code := by decide +kernel
  have h3 : Lx .code (utf8Of "\n}") [.p 125] .code := by decide +kernel
  have h4 : Lx .code (c.variants.map fun v => utf8Of "\t" ++ v ++ utf8Of ",\n").flatten (variantLines c.variants) .code := by
    generalize hv : c.variants = vs
    rw [hv] at h
    clear hv
    induction vs with
    | nil => rfl
    | cons v vs ih =>
      have h1 : Lx .code (utf8Of "\t") [] .code := by decide +kernel
      have h2 : Lx .code (utf8Of ",\n") [.p 44] .code := by decide +kernel
      have := (h1.app (Lx.name (h v (by simp)) (by decide +kernel) h2)).app (ih fun x hx => h x (by simp [hx]))
      simpa [variantLines] using this
  have := h1.app (Lx.num (n := c.numRules) (delim_append (by decide +kernel)) (h2.app (h4.app h3)))
  unfold lex
  rw [show rulesFile c = rulesHeader ++ (decimal c.numRules ++ (rulesHeader2 ++ ((c.variants.map fun v => utf8Of "\t" ++ v ++ utf8Of ",\n").flatten ++
    utf8Of "\n}"))) by simp [rulesFile], this]
  simp [finish]

end PP.Gen.Text
