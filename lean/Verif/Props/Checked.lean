import Verif.Lemmas.Texts.Dsl
import Verif.Lemmas.Texts.Ex1
import Verif.Lemmas.Texts.Ex2
import Verif.Lemmas.Texts.Ex3
import Verif.Lemmas.Texts.Ex4
import Verif.Lemmas.Texts.Ex5
import Verif.Lemmas.Texts.Ex6
import Verif.Lemmas.Texts.Ex7
import Verif.Lemmas.Texts.Ex8
import Verif.Lemmas.Texts.Ex9
import Verif.Lemmas.Texts.Ex10
import Verif.Lemmas.Texts.Ex11

/-! # C75: the checked-in parsers, read as Rust

`Texts.…` (Model/Texts.lean) are the checked-in rules.rs and parser.rs, byte for byte, one string per line (copied by tools/rs2lean.py, which
also wrote this file).  Read as Rust (Spec/RustText.lean) they define exactly the rules and bodies of Model/Grammars, about which C24-C26, C62-C66
and others speak; and the generator still makes the same parser of the checked-in grammar files. -/
namespace PP.Gen
open Text PP.Run

/-- C75, the parser of grammar files: the checked-in files define these rules, with these bodies. -/
theorem C75_dsl_text : IsTextOf (fileOf Texts.dslRules) (fileOf Texts.dslParser) Dsl.all Dsl.body (fun r => utf8Of (Files.dslName r))
    (Files.dslEnum.map utf8Of) := dslText

/-- C75, the parser of grammar files: the checked-in files are up to date. -/
theorem C75_dsl_up_to_date : UpToDate (fileOf Files.dslFile) (fileOf Texts.dslRules) (fileOf Texts.dslParser) := dslCurrent

/-- C75, example 1: the checked-in files define these rules, with these bodies. -/
theorem C75_example1_text : IsTextOf (fileOf Texts.ex1Rules) (fileOf Texts.ex1Parser) Ex1.all Ex1.body (fun r => utf8Of (Files.ex1Name r))
    (Files.ex1Enum.map utf8Of) := ex1Text

/-- C75, example 1: the checked-in files are up to date. -/
theorem C75_example1_up_to_date : UpToDate (fileOf Files.ex1File) (fileOf Texts.ex1Rules) (fileOf Texts.ex1Parser) := ex1Current

/-- C75, example 2: the checked-in files define these rules, with these bodies. -/
theorem C75_example2_text : IsTextOf (fileOf Texts.ex2Rules) (fileOf Texts.ex2Parser) Ex2.all Ex2.body (fun r => utf8Of (Files.ex2Name r))
    (Files.ex2Enum.map utf8Of) := ex2Text

/-- C75, example 2: the checked-in files are up to date. -/
theorem C75_example2_up_to_date : UpToDate (fileOf Files.ex2File) (fileOf Texts.ex2Rules) (fileOf Texts.ex2Parser) := ex2Current

/-- C75, example 3: the checked-in files define these rules, with these bodies. -/
theorem C75_example3_text : IsTextOf (fileOf Texts.ex3Rules) (fileOf Texts.ex3Parser) Ex3.all Ex3.body (fun r => utf8Of (Files.ex3Name r))
    (Files.ex3Enum.map utf8Of) := ex3Text

/-- C75, example 3: the checked-in files are up to date. -/
theorem C75_example3_up_to_date : UpToDate (fileOf Files.ex3File) (fileOf Texts.ex3Rules) (fileOf Texts.ex3Parser) := ex3Current

/-- C75, example 4: the checked-in files define these rules, with these bodies. -/
theorem C75_example4_text : IsTextOf (fileOf Texts.ex4Rules) (fileOf Texts.ex4Parser) Ex4.all Ex4.body (fun r => utf8Of (Files.ex4Name r))
    (Files.ex4Enum.map utf8Of) := ex4Text

/-- C75, example 4: the checked-in files are up to date. -/
theorem C75_example4_up_to_date : UpToDate (fileOf Files.ex4File) (fileOf Texts.ex4Rules) (fileOf Texts.ex4Parser) := ex4Current

/-- C75, example 5: the checked-in files define these rules, with these bodies. -/
theorem C75_example5_text : IsTextOf (fileOf Texts.ex5Rules) (fileOf Texts.ex5Parser) Ex5.all Ex5.body (fun r => utf8Of (Files.ex5Name r))
    (Files.ex5Enum.map utf8Of) := ex5Text

/-- C75, example 5: the checked-in files are up to date. -/
theorem C75_example5_up_to_date : UpToDate (fileOf Files.ex5File) (fileOf Texts.ex5Rules) (fileOf Texts.ex5Parser) := ex5Current

/-- C75, example 6: the checked-in files define these rules, with these bodies. -/
theorem C75_example6_text : IsTextOf (fileOf Texts.ex6Rules) (fileOf Texts.ex6Parser) Ex6.all Ex6.body (fun r => utf8Of (Files.ex6Name r))
    (Files.ex6Enum.map utf8Of) := ex6Text

/-- C75, example 6: the checked-in files are up to date. -/
theorem C75_example6_up_to_date : UpToDate (fileOf Files.ex6File) (fileOf Texts.ex6Rules) (fileOf Texts.ex6Parser) := ex6Current

/-- C75, example 7: the checked-in files define these rules, with these bodies. -/
theorem C75_example7_text : IsTextOf (fileOf Texts.ex7Rules) (fileOf Texts.ex7Parser) Ex7.all Ex7.body (fun r => utf8Of (Files.ex7Name r))
    (Files.ex7Enum.map utf8Of) := ex7Text

/-- C75, example 7: the checked-in files are up to date. -/
theorem C75_example7_up_to_date : UpToDate (fileOf Files.ex7File) (fileOf Texts.ex7Rules) (fileOf Texts.ex7Parser) := ex7Current

/-- C75, example 8: the checked-in files define these rules, with these bodies. -/
theorem C75_example8_text : IsTextOf (fileOf Texts.ex8Rules) (fileOf Texts.ex8Parser) Ex8.all Ex8.body (fun r => utf8Of (Files.ex8Name r))
    (Files.ex8Enum.map utf8Of) := ex8Text

/-- C75, example 8: the checked-in files are up to date. -/
theorem C75_example8_up_to_date : UpToDate (fileOf Files.ex8File) (fileOf Texts.ex8Rules) (fileOf Texts.ex8Parser) := ex8Current

/-- C75, example 9: the checked-in files define these rules, with these bodies. -/
theorem C75_example9_text : IsTextOf (fileOf Texts.ex9Rules) (fileOf Texts.ex9Parser) Ex9.all Ex9.body (fun r => utf8Of (Files.ex9Name r))
    (Files.ex9Enum.map utf8Of) := ex9Text

/-- C75, example 9: the checked-in files are up to date. -/
theorem C75_example9_up_to_date : UpToDate (fileOf Files.ex9File) (fileOf Texts.ex9Rules) (fileOf Texts.ex9Parser) := ex9Current

/-- C75, example 10: the checked-in files define these rules, with these bodies. -/
theorem C75_example10_text : IsTextOf (fileOf Texts.ex10Rules) (fileOf Texts.ex10Parser) Ex10.all Ex10.body (fun r => utf8Of (Files.ex10Name r))
    (Files.ex10Enum.map utf8Of) := ex10Text

/-- C75, example 10: the checked-in files are up to date. -/
theorem C75_example10_up_to_date : UpToDate (fileOf Files.ex10File) (fileOf Texts.ex10Rules) (fileOf Texts.ex10Parser) := ex10Current

/-- C75, example 11: the checked-in files define these rules, with these bodies. -/
theorem C75_example11_text : IsTextOf (fileOf Texts.ex11Rules) (fileOf Texts.ex11Parser) Ex11.all Ex11.body (fun r => utf8Of (Files.ex11Name r))
    (Files.ex11Enum.map utf8Of) := ex11Text

/-- C75, example 11: the checked-in files are up to date. -/
theorem C75_example11_up_to_date : UpToDate (fileOf Files.ex11File) (fileOf Texts.ex11Rules) (fileOf Texts.ex11Parser) := ex11Current

end PP.Gen
