import Verif.Lemmas.Mini.Evaluate
import Verif.Lemmas.Mini.Calc1
import Verif.Lemmas.Mini.Calc2
import Verif.Lemmas.Mini.Calc3
import Verif.Lemmas.Mini.Calc4
import Verif.Lemmas.Mini.Texts.CalcCrate1
import Verif.Lemmas.Mini.Texts.CalcCrate2
import Verif.Lemmas.Mini.Texts.CalcCrate3
import Verif.Lemmas.Mini.Texts.CalcCrate4
import Verif.Props.Execute

/-! # The evaluators' crates have what the simulations need -/
namespace PP.Mini
open PP.Gen

section
variable {R U : Type}

theorem vn_eq {W : World R U} {enum : List Bytes} {name : R → Bytes} (hv : ∀ r, W.vn r = nameOf (variantOf enum (name r))) (r : R) {v : Name}
    (e : nameOf (variantOf enum (name r)) = v) : W.vn r = v := (hv r).trans e
theorem var_of {Q : Prog} {enum : List Bytes} (hv : ∀ v ∈ enum, Q.isVariant n!"Rules" (nameOf v) = true) (s : String) {v : Name}
    (hm : utf8Of s ∈ enum) (e : nameOf (utf8Of s) = v) : Q.isVariant n!"Rules" v = true := e ▸ hv _ hm
end

theorem hasCalc1 {U : Type} {W : World Ex1 U} (H : HasUser (plainItems ++ Ast.calc1LibItems) W.Q)
    (hv : ∀ r, W.vn r = nameOf (variantOf (Files.ex1Enum.map utf8Of) (utf8Of (Files.ex1Name r))))
    (hvar : ∀ v ∈ Files.ex1Enum.map utf8Of, W.Q.isVariant n!"Rules" (nameOf v) = true)
    (htup : ∀ x, Prog.isTuple Ast.core x = false → x ≠ n!"UserState" → W.Q.isTuple x = false) : HasCalc1 W where
  kernel := H.fn _ _ _ (by decide +kernel)
  tree := H.fn _ _ _ (by decide +kernel)
  notTuple := htup _ (by decide +kernel) (by decide +kernel)
  isVar := var_of hvar "Subtraction" (by decide +kernel) (by decide +kernel)
  isGrammar := var_of hvar "Grammar" (by decide +kernel) (by decide +kernel)
  v_grammar := vn_eq hv .r_grammar (by decide +kernel)
  v_expr := vn_eq hv .r_expr (by decide +kernel)
  v_addition := vn_eq hv .r_addition (by decide +kernel)
  v_subtraction := vn_eq hv .r_subtraction (by decide +kernel)
  v_integer := vn_eq hv .r_integer (by decide +kernel)

theorem hasCalc2 {U : Type} {W : World Ex2 U} (H : HasUser (plainItems ++ Ast.calc2LibItems) W.Q)
    (hv : ∀ r, W.vn r = nameOf (variantOf (Files.ex2Enum.map utf8Of) (utf8Of (Files.ex2Name r))))
    (hvar : ∀ v ∈ Files.ex2Enum.map utf8Of, W.Q.isVariant n!"Rules" (nameOf v) = true)
    (htup : ∀ x, Prog.isTuple Ast.core x = false → x ≠ n!"UserState" → W.Q.isTuple x = false) : HasCalc2 W where
  kernel := H.fn _ _ _ (by decide +kernel)
  tree := H.fn _ _ _ (by decide +kernel)
  notTuple := htup _ (by decide +kernel) (by decide +kernel)
  isGrammar := var_of hvar "Grammar" (by decide +kernel) (by decide +kernel)
  v_grammar := vn_eq hv .r_grammar (by decide +kernel)
  v_a := vn_eq hv .r_a (by decide +kernel)
  v_b := vn_eq hv .r_b (by decide +kernel)

theorem hasCalc3 {U : Type} {W : World Ex3 U} (H : HasUser (plainItems ++ Ast.calc3LibItems) W.Q)
    (hv : ∀ r, W.vn r = nameOf (variantOf (Files.ex3Enum.map utf8Of) (utf8Of (Files.ex3Name r))))
    (hvar : ∀ v ∈ Files.ex3Enum.map utf8Of, W.Q.isVariant n!"Rules" (nameOf v) = true)
    (htup : ∀ x, Prog.isTuple Ast.core x = false → x ≠ n!"UserState" → W.Q.isTuple x = false) : HasCalc3 W where
  kernel := H.fn _ _ _ (by decide +kernel)
  tree := H.fn _ _ _ (by decide +kernel)
  binary := H.fn _ _ _ (by decide +kernel)
  number := H.fn _ _ _ (by decide +kernel)
  notTuple := htup _ (by decide +kernel) (by decide +kernel)
  notTuple₂ := htup _ (by decide +kernel) (by decide +kernel)
  notTuple₃ := htup _ (by decide +kernel) (by decide +kernel)
  isNumber := var_of hvar "Number" (by decide +kernel) (by decide +kernel)
  isInteger := var_of hvar "Integer" (by decide +kernel) (by decide +kernel)
  isGrammar := var_of hvar "Grammar" (by decide +kernel) (by decide +kernel)
  v_grammar := vn_eq hv .r_grammar (by decide +kernel)
  v_term := vn_eq hv .r_term (by decide +kernel)
  v_factor := vn_eq hv .r_factor (by decide +kernel)
  v_expr := vn_eq hv .r_expr (by decide +kernel)
  v_parentheses := vn_eq hv .r_parentheses (by decide +kernel)
  v_addition := vn_eq hv .r_addition (by decide +kernel)
  v_subtraction := vn_eq hv .r_subtraction (by decide +kernel)
  v_multiplication := vn_eq hv .r_multiplication (by decide +kernel)
  v_division := vn_eq hv .r_division (by decide +kernel)
  v_number := vn_eq hv .r_number (by decide +kernel)
  v_exponent := vn_eq hv .r_exponent (by decide +kernel)
  v_fraction := vn_eq hv .r_fraction (by decide +kernel)
  v_integer := vn_eq hv .r_integer (by decide +kernel)
  v_sign := vn_eq hv .r_sign (by decide +kernel)

theorem hasCalc4 {U : Type} {W : World Ex4 U} (H : HasUser (plainItems ++ Ast.calc4LibItems) W.Q)
    (hv : ∀ r, W.vn r = nameOf (variantOf (Files.ex4Enum.map utf8Of) (utf8Of (Files.ex4Name r))))
    (hvar : ∀ v ∈ Files.ex4Enum.map utf8Of, W.Q.isVariant n!"Rules" (nameOf v) = true)
    (htup : ∀ x, Prog.isTuple Ast.core x = false → x ≠ n!"UserState" → W.Q.isTuple x = false) : HasCalc4 W where
  kernel := H.fn _ _ _ (by decide +kernel)
  tree := H.fn _ _ _ (by decide +kernel)
  binary := H.fn _ _ _ (by decide +kernel)
  number := H.fn _ _ _ (by decide +kernel)
  notTuple := htup _ (by decide +kernel) (by decide +kernel)
  notTuple₂ := htup _ (by decide +kernel) (by decide +kernel)
  notTuple₃ := htup _ (by decide +kernel) (by decide +kernel)
  isNumber := var_of hvar "Number" (by decide +kernel) (by decide +kernel)
  isInteger := var_of hvar "Integer" (by decide +kernel) (by decide +kernel)
  isGrammar := var_of hvar "Grammar" (by decide +kernel) (by decide +kernel)
  v_grammar := vn_eq hv .r_grammar (by decide +kernel)
  v_term := vn_eq hv .r_term (by decide +kernel)
  v_factor := vn_eq hv .r_factor (by decide +kernel)
  v_expr := vn_eq hv .r_expr (by decide +kernel)
  v_parentheses := vn_eq hv .r_parentheses (by decide +kernel)
  v_power_expr := vn_eq hv .r_power_expr (by decide +kernel)
  v_power := vn_eq hv .r_power (by decide +kernel)
  v_addition := vn_eq hv .r_addition (by decide +kernel)
  v_subtraction := vn_eq hv .r_subtraction (by decide +kernel)
  v_multiplication := vn_eq hv .r_multiplication (by decide +kernel)
  v_division := vn_eq hv .r_division (by decide +kernel)
  v_number := vn_eq hv .r_number (by decide +kernel)
  v_exponent := vn_eq hv .r_exponent (by decide +kernel)
  v_fraction := vn_eq hv .r_fraction (by decide +kernel)
  v_integer := vn_eq hv .r_integer (by decide +kernel)
  v_sign := vn_eq hv .r_sign (by decide +kernel)

theorem read_calcFiles {f : List String} {items : Prog} (h : readFile (fileOf f) = some items) :
    readCrate (userFiles ++ [fileOf f]) = some (plainItems ++ items) :=
  readCrate_append read_userFiles (by simp [readCrate, h])

end PP.Mini
