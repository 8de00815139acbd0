import Verif.Lemmas.Files.Dsl
import Verif.Lemmas.Files.Ex1
import Verif.Lemmas.Files.Ex2
import Verif.Lemmas.Files.Ex3
import Verif.Lemmas.Files.Ex4
import Verif.Lemmas.Files.Ex5
import Verif.Lemmas.Files.Ex6
import Verif.Lemmas.Files.Ex7
import Verif.Lemmas.Files.Ex8
import Verif.Lemmas.Files.Ex9
import Verif.Lemmas.Files.Ex10
import Verif.Lemmas.Files.Ex11
import Verif.Lemmas.Files.Json

/-! # C68: the checked-in parsers are what the generator makes of the checked-in grammar files

The grammar files (`Model/Files.lean`), the enums, and the function names are copied by tools/dsl2lean.py; the bodies
(`Model/Grammars`) were translated from the checked-in parser.rs by tools/translate.py. -/
namespace PP.Gen

/-- C68: the parser of grammar files, regenerated from its own grammar file parser/Grammar.dsl, is itself. -/
theorem C68_dsl_bootstraps : Regenerates (fileOf Files.dslFile) Dsl.all Dsl.body (fun r => utf8Of (Files.dslName r)) (Files.dslEnum.map utf8Of) :=
  dslOk.links

/-- C68, example 1. -/
theorem C68_example1 : Regenerates (fileOf Files.ex1File) Ex1.all Ex1.body (fun r => utf8Of (Files.ex1Name r)) (Files.ex1Enum.map utf8Of) :=
  ex1Ok.links

/-- C68, example 2. -/
theorem C68_example2 : Regenerates (fileOf Files.ex2File) Ex2.all Ex2.body (fun r => utf8Of (Files.ex2Name r)) (Files.ex2Enum.map utf8Of) :=
  ex2Ok.links

/-- C68, example 3. -/
theorem C68_example3 : Regenerates (fileOf Files.ex3File) Ex3.all Ex3.body (fun r => utf8Of (Files.ex3Name r)) (Files.ex3Enum.map utf8Of) :=
  ex3Ok.links

/-- C68, example 4. -/
theorem C68_example4 : Regenerates (fileOf Files.ex4File) Ex4.all Ex4.body (fun r => utf8Of (Files.ex4Name r)) (Files.ex4Enum.map utf8Of) :=
  ex4Ok.links

/-- C68, example 5. -/
theorem C68_example5 : Regenerates (fileOf Files.ex5File) Ex5.all Ex5.body (fun r => utf8Of (Files.ex5Name r)) (Files.ex5Enum.map utf8Of) :=
  ex5Ok.links

/-- C68, example 6. -/
theorem C68_example6 : Regenerates (fileOf Files.ex6File) Ex6.all Ex6.body (fun r => utf8Of (Files.ex6Name r)) (Files.ex6Enum.map utf8Of) :=
  ex6Ok.links

/-- C68, example 7. -/
theorem C68_example7 : Regenerates (fileOf Files.ex7File) Ex7.all Ex7.body (fun r => utf8Of (Files.ex7Name r)) (Files.ex7Enum.map utf8Of) :=
  ex7Ok.links

/-- C68, example 8. -/
theorem C68_example8 : Regenerates (fileOf Files.ex8File) Ex8.all Ex8.body (fun r => utf8Of (Files.ex8Name r)) (Files.ex8Enum.map utf8Of) :=
  ex8Ok.links

/-- C68, example 9. -/
theorem C68_example9 : Regenerates (fileOf Files.ex9File) Ex9.all Ex9.body (fun r => utf8Of (Files.ex9Name r)) (Files.ex9Enum.map utf8Of) :=
  ex9Ok.links

/-- C68, example 10. -/
theorem C68_example10 : Regenerates (fileOf Files.ex10File) Ex10.all Ex10.body (fun r => utf8Of (Files.ex10Name r)) (Files.ex10Enum.map utf8Of) :=
  ex10Ok.links

/-- C68, example 11. -/
theorem C68_example11 : Regenerates (fileOf Files.ex11File) Ex11.all Ex11.body (fun r => utf8Of (Files.ex11Name r)) (Files.ex11Enum.map utf8Of) :=
  ex11Ok.links

end PP.Gen
