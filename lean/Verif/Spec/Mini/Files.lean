import Verif.Model.CoreTexts
import Verif.Spec.Files

/-! # Specification: the files of the checked-in parser crates that are the same in all of them -/
namespace PP.Mini
open PP.Gen

/-- The core of an example crate (examples/example_1_parser/src; the other examples have the same files).  keys.rs, source.rs, cache.rs, publisher.rs and parser_core.rs are those of parser/src. -/
def coreFiles : List Bytes :=
  [CoreTexts.keys, CoreTexts.source, CoreTexts.cache, CoreTexts.publisher, CoreTexts.exContext, CoreTexts.parserCore,
    CoreTexts.exVarName, CoreTexts.exParse].map fileOf

/-- The core in parser/src, from which the generator copies (context.rs, var_name.rs and parse.rs differ from those of the examples in
the order of imports). -/
def coreFilesOfParser : List Bytes :=
  [CoreTexts.keys, CoreTexts.source, CoreTexts.cache, CoreTexts.publisher, CoreTexts.context, CoreTexts.parserCore,
    CoreTexts.varName, CoreTexts.parse].map fileOf

/-- The two files that a user may change, as they are in parser/src and in all examples but example 11: user_state.rs and hooked_calls.rs (which is blank). -/
def userFiles : List Bytes := [CoreTexts.userState, CoreTexts.hookedCalls].map fileOf

/-- The two files in example 11. -/
def ex11UserFiles : List Bytes := [CoreTexts.ex11UserState, CoreTexts.ex11HookedCalls].map fileOf

end PP.Mini
