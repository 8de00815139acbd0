import Verif.Props.Generated
import Verif.Props.Hooked
import Verif.Lemmas.Mini.Ex11
import Verif.Lemmas.Mini.Texts.Ex11

/-! # C78: the Rust source text of example 11, with its hooked call and its user state, executed

The files are those of C76, but user_state.rs and hooked_calls.rs are example 11's own: the hooked call `unique_line_cache` and the set of
lines it keeps are read from the repository's text and executed. -/
namespace PP.Mini
open PP.Gen

theorem read_ex11UserFiles : readCrate ex11UserFiles = some ex11Items := by
  simp [ex11UserFiles, readCrate, read_ex11UserState, read_ex11HookedCalls, ex11Items]

/-- C78: the text of example 11, executed, computes what the model computes. -/
theorem C78_example11_executed : ∃ Q, readCrate (coreFiles ++ ex11UserFiles ++ [fileOf Texts.ex11Rules, fileOf Texts.ex11Parser]) = some Q ∧
    Computes Q ex11Parser fun r => nameOf (variantOf (Files.ex11Enum.map utf8Of) (utf8Of (Files.ex11Name r))) :=
  crateCheck_ok (us := ex11User) read_coreFiles read_ex11UserFiles ex11UserSim (by intro r; cases r <;> decide) ex11Crate

/-- C78: on every text (below 4 GiB minus 4 bytes) the execution of example 11's text ends and returns `(b, q, …)`, where the first `q` bytes
are the longest prefix made of pairwise different lines, and `b` says whether there is a line at all. -/
theorem C78_example11_unique_lines : ∃ Q, readCrate (coreFiles ++ ex11UserFiles ++ [fileOf Texts.ex11Rules, fileOf Texts.ex11Parser]) = some Q ∧
    ∀ input : Bytes, input.length + 4 ≤ 2 ^ 32 → (⟨input⟩ : Source).IsText → ∃ (ls : List (List UInt8)) (t : Val) (N : Nat),
      (∀ n, N ≤ n → ∃ h, runParse Q n input = .ok (.tuple [.bool (!ls.isEmpty), .int ls.flatten.length, t]) h) ∧
      DistinctLines ls ∧ ls.flatten <+: input ∧
      ∀ ls', DistinctLines ls' → ls'.flatten <+: input → ls'.flatten.length ≤ ls.flatten.length := by
  obtain ⟨Q, hQ, hC⟩ := C78_example11_executed
  refine ⟨Q, hQ, fun input hs ht => ?_⟩
  obtain ⟨ls, rest, t, N, e1, e2, e3, -⟩ := C41_unique_lines ⟨input⟩ hs ht
  have hp := e1 N (Nat.le_refl _)
  obtain ⟨M, hM⟩ := hC.complete input N _ hp
  refine ⟨ls, _, M, hM, e3, ⟨rest, e2.symm⟩, fun ls' h1 h2 => ?_⟩
  exact ((C41_longest_prefix ⟨input⟩ hs ht hp).2 ls' h1 h2).1

/-! An execution by the kernel: the text of example 11 on three lines of which the third repeats the first. -/
set_option maxRecDepth 100000 in
example : (match readCrate [fileOf Texts.ex11Rules, fileOf Texts.ex11Parser] with
    | some g => match runParse (Ast.core ++ (ex11Items ++ g)) 60 (utf8Of "ab\nc\nab\n") with
      | .ok (.tuple [.bool b, .int q, _]) _ => b && q == 5
      | _ => false
    | none => false) = true := by decide +kernel

end PP.Mini
