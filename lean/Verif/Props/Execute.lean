import Verif.Lemmas.Mini.Check
import Verif.Spec.Mini.Files
import Verif.Lemmas.Mini.Texts.Core1
import Verif.Lemmas.Mini.Texts.Core2
import Verif.Lemmas.Mini.Texts.Core3
import Verif.Lemmas.Mini.Texts.Core4
import Verif.Lemmas.Mini.Texts.Core5
import Verif.Lemmas.Mini.Texts.Dsl
import Verif.Lemmas.Mini.Texts.Ex1
import Verif.Lemmas.Mini.Texts.Ex2
import Verif.Lemmas.Mini.Texts.Ex3
import Verif.Lemmas.Mini.Texts.Ex4
import Verif.Lemmas.Mini.Texts.Ex5
import Verif.Lemmas.Mini.Texts.Ex6
import Verif.Lemmas.Mini.Texts.Ex7
import Verif.Lemmas.Mini.Texts.Ex8
import Verif.Lemmas.Mini.Texts.Ex9
import Verif.Lemmas.Mini.Texts.Ex10

/-! # C76: the Rust source text of the checked-in parser crates, executed, computes what the model computes

`Spec/Mini` reads Rust source text and executes it; the texts are those in the repository, byte for byte (Model/CoreTexts, Model/Texts).
So the model of the core (Model/Core, Model/Context, Model/VarName, Model/Interp) and of the checked-in parsers is not only transcribed by
hand from the code: on every input the text gives the model's result. -/
namespace PP.Mini
open PP.Gen

theorem read_coreFiles : readCrate coreFiles = some Ast.core := by
  simp [coreFiles, readCrate, read_keys, read_source, read_cache, read_publisher, read_exContext, read_parserCore, read_exVarName,
    read_exParse, Ast.core]
theorem read_coreFilesOfParser : readCrate coreFilesOfParser = some Ast.core := by
  simp [coreFilesOfParser, readCrate, read_keys, read_source, read_cache, read_publisher, read_context, read_parserCore, read_varName,
    read_parse, Ast.core]

theorem read_userFiles : readCrate userFiles = some plainItems := by
  simp [userFiles, readCrate, read_userState, read_hookedCalls, plainItems]

/-- C76, the parser of grammar files (parser/src). -/
theorem C76_dsl_executed : ∃ Q, readCrate (coreFilesOfParser ++ userFiles ++ [fileOf Texts.dslRules, fileOf Texts.dslParser]) = some Q ∧
    Computes Q dslParser fun r => nameOf (variantOf (Files.dslEnum.map utf8Of) (utf8Of (Files.dslName r))) :=
  crateCheck_ok read_coreFilesOfParser read_userFiles (plainUserSim _) (by intro r; cases r <;> decide) dslCrate

/-- C76, example 1. -/
theorem C76_example1_executed : ∃ Q, readCrate (coreFiles ++ userFiles ++ [fileOf Texts.ex1Rules, fileOf Texts.ex1Parser]) = some Q ∧
    Computes Q ex1Parser fun r => nameOf (variantOf (Files.ex1Enum.map utf8Of) (utf8Of (Files.ex1Name r))) :=
  crateCheck_ok read_coreFiles read_userFiles (plainUserSim _) (by intro r; cases r <;> decide) ex1Crate

/-- C76, example 2. -/
theorem C76_example2_executed : ∃ Q, readCrate (coreFiles ++ userFiles ++ [fileOf Texts.ex2Rules, fileOf Texts.ex2Parser]) = some Q ∧
    Computes Q ex2Parser fun r => nameOf (variantOf (Files.ex2Enum.map utf8Of) (utf8Of (Files.ex2Name r))) :=
  crateCheck_ok read_coreFiles read_userFiles (plainUserSim _) (by intro r; cases r <;> decide) ex2Crate

/-- C76, example 3. -/
theorem C76_example3_executed : ∃ Q, readCrate (coreFiles ++ userFiles ++ [fileOf Texts.ex3Rules, fileOf Texts.ex3Parser]) = some Q ∧
    Computes Q ex3Parser fun r => nameOf (variantOf (Files.ex3Enum.map utf8Of) (utf8Of (Files.ex3Name r))) :=
  crateCheck_ok read_coreFiles read_userFiles (plainUserSim _) (by intro r; cases r <;> decide) ex3Crate

/-- C76, example 4. -/
theorem C76_example4_executed : ∃ Q, readCrate (coreFiles ++ userFiles ++ [fileOf Texts.ex4Rules, fileOf Texts.ex4Parser]) = some Q ∧
    Computes Q ex4Parser fun r => nameOf (variantOf (Files.ex4Enum.map utf8Of) (utf8Of (Files.ex4Name r))) :=
  crateCheck_ok read_coreFiles read_userFiles (plainUserSim _) (by intro r; cases r <;> decide) ex4Crate

/-- C76, example 5. -/
theorem C76_example5_executed : ∃ Q, readCrate (coreFiles ++ userFiles ++ [fileOf Texts.ex5Rules, fileOf Texts.ex5Parser]) = some Q ∧
    Computes Q ex5Parser fun r => nameOf (variantOf (Files.ex5Enum.map utf8Of) (utf8Of (Files.ex5Name r))) :=
  crateCheck_ok read_coreFiles read_userFiles (plainUserSim _) (by intro r; cases r <;> decide) ex5Crate

/-- C76, example 6. -/
theorem C76_example6_executed : ∃ Q, readCrate (coreFiles ++ userFiles ++ [fileOf Texts.ex6Rules, fileOf Texts.ex6Parser]) = some Q ∧
    Computes Q ex6Parser fun r => nameOf (variantOf (Files.ex6Enum.map utf8Of) (utf8Of (Files.ex6Name r))) :=
  crateCheck_ok read_coreFiles read_userFiles (plainUserSim _) (by intro r; cases r <;> decide) ex6Crate

/-- C76, example 7. -/
theorem C76_example7_executed : ∃ Q, readCrate (coreFiles ++ userFiles ++ [fileOf Texts.ex7Rules, fileOf Texts.ex7Parser]) = some Q ∧
    Computes Q ex7Parser fun r => nameOf (variantOf (Files.ex7Enum.map utf8Of) (utf8Of (Files.ex7Name r))) :=
  crateCheck_ok read_coreFiles read_userFiles (plainUserSim _) (by intro r; cases r <;> decide) ex7Crate

/-- C76, example 8. -/
theorem C76_example8_executed : ∃ Q, readCrate (coreFiles ++ userFiles ++ [fileOf Texts.ex8Rules, fileOf Texts.ex8Parser]) = some Q ∧
    Computes Q ex8Parser fun r => nameOf (variantOf (Files.ex8Enum.map utf8Of) (utf8Of (Files.ex8Name r))) :=
  crateCheck_ok read_coreFiles read_userFiles (plainUserSim _) (by intro r; cases r <;> decide) ex8Crate

/-- C76, example 9. -/
theorem C76_example9_executed : ∃ Q, readCrate (coreFiles ++ userFiles ++ [fileOf Texts.ex9Rules, fileOf Texts.ex9Parser]) = some Q ∧
    Computes Q ex9Parser fun r => nameOf (variantOf (Files.ex9Enum.map utf8Of) (utf8Of (Files.ex9Name r))) :=
  crateCheck_ok read_coreFiles read_userFiles (plainUserSim _) (by intro r; cases r <;> decide) ex9Crate

/-- C76, example 10. -/
theorem C76_example10_executed : ∃ Q, readCrate (coreFiles ++ userFiles ++ [fileOf Texts.ex10Rules, fileOf Texts.ex10Parser]) = some Q ∧
    Computes Q ex10Parser fun r => nameOf (variantOf (Files.ex10Enum.map utf8Of) (utf8Of (Files.ex10Name r))) :=
  crateCheck_ok read_coreFiles read_userFiles (plainUserSim _) (by intro r; cases r <;> decide) ex10Crate

/-! Executions: example 1 on `1+2` and on `+`, by the kernel. -/
set_option maxRecDepth 100000 in
example : (match readCrate [fileOf Texts.ex1Rules, fileOf Texts.ex1Parser] with
    | some g => match runParse (Ast.core ++ (plainItems ++ g)) 60 (utf8Of "1+2"), runParse (Ast.core ++ (plainItems ++ g)) 60 (utf8Of "+") with
      | .ok (.tuple [.bool b, .int q, _]) _, .ok (.tuple [.bool b', .int q', _]) _ => b && q == 3 && !b' && q' == 0
      | _, _ => false
    | none => false) = true := by decide +kernel

end PP.Mini
