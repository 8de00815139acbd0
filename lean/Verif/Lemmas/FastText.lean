import Lean
import Verif.Spec.Files

/-! # Texts as lists of character codes -/
namespace PP.Gen
open Lean Meta Elab Command

theorem utf8Of_ofList (cs : List Char) : utf8Of (String.ofList cs) = cs.flatMap String.utf8EncodeChar := by
  simp [utf8Of, String.ofList, List.utf8Encode]

theorem encode_nat {n : Nat} (h : n < 128) : String.utf8EncodeChar (Char.ofNat n) = [UInt8.ofNat n] := by
  have hv : (Char.ofNat n).val.toNat = n := by
    rw [Char.ofNat, dif_pos (by simp [Nat.isValidChar]; omega)]
    simp [Char.ofNatAux, UInt32.toNat]
  have : (Char.ofNat n).val ≤ 0x7f := by
    rw [UInt32.le_iff_toNat_le, hv]; simp; omega
  simp [String.utf8EncodeChar, hv]
  omega

/-- The bytes of a file given by the codes of its characters, line by line. -/
def fileOfNats (nss : List (List Nat)) : Bytes := nss.flatMap fun ns => ns.map UInt8.ofNat

/-- An ASCII file as its codes.  (For the kernel this is a much cheaper way to get at the bytes of string literals than `utf8Of`.) -/
theorem fileOf_nats {ls : List String} (nss : List (List Nat)) (h : ls = nss.map fun ns => String.ofList (ns.map Char.ofNat))
    (h' : nss.all (fun ns => ns.all fun n => Nat.blt n 128) = true) : fileOf ls = fileOfNats nss := by
  subst h
  simp only [fileOf, fileOfNats, List.flatMap, List.map_map]
  congr 1
  refine List.map_congr_left fun ns hns => ?_
  simp only [Function.comp_apply, utf8Of_ofList]
  have := List.all_eq_true.1 h' ns hns
  clear h' hns
  induction ns with
  | nil => rfl
  | cons n ns ih =>
    simp only [List.all_cons, Bool.and_eq_true] at this
    simp only [List.map_cons, List.flatMap_cons, ih this.2]
    rw [encode_nat (by have := this.1; simp [Nat.blt] at this; omega)]
    rfl

partial def strings (e : Lean.Expr) : MetaM (List String) := do
  let e ← whnfCore e
  match_expr e with
  | List.nil _ => return []
  | List.cons _ a b =>
    match a with
    | .lit (.strVal s) => return s :: (← strings b)
    | _ => throwError "not a literal"
  | _ => throwError "not a list"

/-- `fast_file c d` for a constant `c : List String` of string literals: defines `d`, the codes of its characters, and proves
`d_eq : fileOf c = fileOfNats d`.  The command only writes down the definition and the proof term `fileOf_nats d rfl rfl`; the kernel checks it. -/
elab "fast_file " c:ident d:ident : command => liftTermElabM do
  let cn ← realizeGlobalConstNoOverloadWithInfo c
  let some (.defnInfo ci) := (← getEnv).find? cn | throwError "not a definition"
  let ss ← strings ci.value
  let natT := mkConst ``Nat
  let lnatT := mkApp (mkConst ``List [.zero]) natT
  let mkL (t : Lean.Expr) (es : List Lean.Expr) : Lean.Expr := es.foldr (fun a b => mkApp3 (mkConst ``List.cons [.zero]) t a b) (mkApp (mkConst ``List.nil [.zero]) t)
  let v := mkL lnatT (ss.map fun s => mkL natT (s.toList.map fun ch => mkRawNatLit ch.toNat))
  let v := ShareCommon.shareCommon' v
  let dn := (← getCurrNamespace) ++ d.getId
  let ty := mkApp (mkConst ``List [.zero]) lnatT
  addDecl <| .defnDecl { name := dn, levelParams := [], type := ty, value := v, hints := .abbrev, safety := .safe }
  let lhs := mkConst cn
  let rfl := mkApp2 (mkConst ``Eq.refl [.succ .zero]) (mkApp (mkConst ``List [.zero]) (mkConst ``String)) lhs
  let rfl2 := mkApp2 (mkConst ``Eq.refl [.succ .zero]) (mkConst ``Bool) (mkConst ``Bool.true)
  addDecl <| .thmDecl { name := dn.appendAfter "_eq", levelParams := [], type := ← mkEq (mkApp (mkConst ``fileOf) lhs) (mkApp (mkConst ``fileOfNats) (mkConst dn)),
                        value := mkApp4 (mkConst ``fileOf_nats) lhs (mkConst dn) rfl rfl2 }

end PP.Gen
