import Verif.Lemmas.Mini.Evaluate
import Verif.Lemmas.Mini.Generated
import Verif.Lemmas.Mini.Same
import Verif.Lemmas.SameLink
import Verif.Props.Execute

/-! # The world of a crate of generated code and more files of the user's -/
namespace PP.Mini
open PP.Gen

theorem rename_named_of {R S : Type} {name : R → Bytes} {name' : S → Bytes} {m : S → R} (hm : ∀ s, name (m s) = name' s) :
    ∀ e : Expr S, named name (e.rename m) = named name' e := by
  intro e
  induction e with
  | varNameLR inv r => simp only [Expr.rename, named, hm, List.map_map]; congr 1; exact List.map_congr_left fun x _ => hm x
  | varName r | inlined r => simp only [Expr.rename, named, hm]
  | _ => simp only [Expr.rename, named, *]

theorem agrees_rename {R S : Type} {name : R → Bytes} {name' : S → Bytes} {m : S → R} (hm : ∀ s, name (m s) = name' s) :
    ∀ {a : Expr S} {e : Expr Bytes}, Agrees name' a e → Agrees name (a.rename m) e := by
  intro a
  induction a with
  | andPredicate _ ih | notPredicate _ ih | oneOrMore _ ih | zeroOrMore _ ih | optional _ ih | subexpression _ ih =>
    intro e h; cases e <;> first | exact h.elim | exact ih h
  | hooked _ _ ih => intro e h; cases e <;> first | exact h.elim | exact ⟨h.1, ih h.2⟩
  | orderedChoice a b iha ihb | sequence a b iha ihb =>
    intro e h; cases e <;> first | exact h.elim | exact ⟨iha h.1, ihb h.2⟩
  | terminal | stringTerminal | matchRange => intro e h; cases e <;> first | exact h.elim | exact h
  | varName r | inlined r => intro e h; cases e <;> first | exact h.elim | exact (hm r).trans h
  | varNameLR inv r =>
    intro e h; cases e <;> first | exact h.elim | skip
    refine ⟨(hm r).trans h.1, fun x => (h.2 x).trans ⟨?_, ?_⟩⟩
    · rintro ⟨s, hs, rfl⟩; exact ⟨m s, List.mem_map_of_mem hs, hm s⟩
    · rintro ⟨s, hs, rfl⟩
      obtain ⟨y, hy, rfl⟩ := List.mem_map.mp hs
      exact ⟨y, hy, (hm y).symm⟩

section
variable {R : Type} [DecidableEq R] {g : DGrammar} {ord : HashOrd} {n₀ : Nat} {c : GeneratedCode} {body : R → Expr R} {name : R → Bytes} {start : R}

/-- The world of a crate of generated code, with the user's files `user`. -/
theorem generated_world {user : List Bytes} {items : Prog} (huser : readCrate user = some items) (hu1 : userOK items [] = true)
    (hu2 : items.fn? (some n!"UserState") n!"new" = some Ast.UserState.new) (hu3 : items.isUnit n!"UserState" = true)
    (hi : ∀ r ∈ g, Prog.fns items none (nameOf (lower r.name)) = [])
    (hw : g.WF) (hsm : g.text.length < 82000000) (h : generateParser ord n₀ g.text = .ok (.code c))
    (hf : ∀ r ∈ g, r.rhs.Faithful) (hr : g.Runnable) (hl : Links c body name) (hs : name start = utf8Of "grammar") :
    ∃ W : World R Unit, readCrate (coreFilesOfParser ++ user ++ [Run.rulesFile c, Run.parserFile c]) = some W.Q ∧
      Computes W.Q (.plain body start) W.vn ∧ HasUser items W.Q ∧ (∀ r, W.vn r = nameOf (variantOf c.variants (name r))) ∧
      (∀ v ∈ c.variants, W.Q.isVariant n!"Rules" (nameOf v) = true) ∧
      ∀ x, Prog.isTuple Ast.core x = false → x ≠ n!"UserState" → W.Q.isTuple x = false := by
  obtain ⟨body', funs, hl', h2, h3, h4, h5⟩ := generated_crate_with (hs := []) (items := items) (by simp) hw hsm h hf (runnable_with hr) hi
  have hm : ∀ f : g.Fn, ∃ r, name r = f.1 := fun f => by
    obtain ⟨k, hk, e, -⟩ := hl'.fn f
    obtain ⟨r, hr⟩ := hl.all k hk
    exact ⟨r, hr.trans e⟩
  have hf' : ∀ r, ∃ f : g.Fn, f.1 = name r := fun r => by
    obtain ⟨k, hk, e, -⟩ := hl.fn r
    obtain ⟨f, hf⟩ := hl'.all k hk
    exact ⟨f, hf.trans e⟩
  choose m hm using hm
  choose fn hfn using hf'
  let P : Parser R Unit := .plain (fun r => (body' (fn r)).rename m) start
  have hlP : Links c P.body name := ⟨hl.nodup, hl.inj, hl.all, fun r => by
    obtain ⟨k, hk, e, x, hx, ha⟩ := hl'.fn (fn r)
    exact ⟨k, hk, e.trans (hfn r), x, hx, agrees_rename hm ha⟩⟩
  have hR := h5 P name hl.inj (fun r => ⟨fn r, hfn r, rename_named_of hm _⟩) hs
  have hu : UserSim (plainUser Unit items) P := noHooksUserSim P hu1 hu2 hu3
  obtain ⟨s1, s2⟩ := links_same (P := P) (P' := .plain body start) hlP hl rfl rfl rfl
  refine ⟨worldOf false hu.ok h4 hR [], ?_, ?_, hasUser hu.ok h4, fun _ => rfl, (world_crate hu h4 hR []).named.variants, fun x hx hne => ?_⟩
  · rw [List.append_assoc]
    refine readCrate_append read_coreFilesOfParser (readCrate_append huser ?_)
    simp [readCrate, h2, h3, genOf]
  · exact computes_same s1 s2 (fun r s e => by rw [show name r = name s from e]; rfl) (computes hu h4 hR)
  · have := hu.ok.not_tuple hne
    simp only [Prog.isTuple, List.contains_eq_any_beq] at this hx
    simp only [worldOf, progOf, Prog.isTuple, List.contains_eq_any_beq, List.any_append, this, hx]
    simp [rulesItems, parserItems]
end
end PP.Mini
