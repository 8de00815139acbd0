import Verif.Lemmas.Mini.ByHand
import Verif.Props.Generated

/-! # C94: every rule is an entry point, and expressions may be written by hand

`parse` is one way to use a parser crate.  Another, used by all tests of the repository, is to call the functions of the core: `_var_name(&user_state,
Rules::Rr, &context, rr)`, or an expression of such calls, at any position of a text. -/
namespace PP.Mini
open PP.Gen

section
variable {R S : Type} {m : S → R} {vn fn : R → Name} {Q : Prog} {n u c : Nat}

theorem byHand_rename : ∀ {e : Expr S}, ByHand e → ByHand (e.rename m) := by
  intro e
  induction e with
  | andPredicate _ ih | notPredicate _ ih | oneOrMore _ ih | zeroOrMore _ ih | optional _ ih | subexpression _ ih => exact fun h => ih h
  | orderedChoice _ _ iha ihb | sequence _ _ iha ihb => exact fun h => ⟨iha h.1, ihb h.2⟩
  | terminal | stringTerminal | matchRange | varName | varNameLR => exact fun _ => trivial
  | inlined | hooked => exact fun h => h.elim

theorem plain_rename : ∀ {e : Expr S}, e.Plain → (e.rename m).Plain := by
  intro e
  induction e with
  | andPredicate _ ih | notPredicate _ ih | oneOrMore _ ih | zeroOrMore _ ih | optional _ ih | subexpression _ ih => exact fun h => ih h
  | orderedChoice _ _ iha ihb | sequence _ _ iha ihb => exact fun h => ⟨iha h.1, ihb h.2⟩
  | terminal | stringTerminal | matchRange | varName | inlined => exact fun _ => trivial
  | varNameLR | hooked => exact fun h => h.elim

theorem make_rename {vn' fn' : S → Name} : ∀ {e : Expr S} (h : Heap), (∀ x ∈ e.mentions, vn (m x) = vn' x ∧ fn (m x) = fn' x) →
    make Q n vn fn u c (e.rename m) h = make Q n vn' fn' u c e h := by
  intro e
  induction e with
  | andPredicate _ ih | notPredicate _ ih | oneOrMore _ ih | zeroOrMore _ ih | optional _ ih | subexpression _ ih =>
    intro h hx; simp only [Expr.rename, make, ih h hx]
  | orderedChoice _ _ iha ihb | sequence _ _ iha ihb =>
    intro h hx
    simp only [Expr.rename, make, iha h fun x hm => hx x (List.mem_append_left _ hm), fun h => ihb h fun x hm => hx x (List.mem_append_right _ hm)]
  | terminal | stringTerminal | matchRange | inlined | hooked => intros; rfl
  | varName r => intro h hx; simp only [Expr.rename, make, encRule, (hx r (by simp [Expr.mentions])).1, (hx r (by simp [Expr.mentions])).2]
  | varNameLR l r =>
    intro h hx
    have hl : (l.map m).map (encRule vn) = l.map (encRule vn') := by
      rw [List.map_map]
      exact List.map_congr_left fun x hm => by simp only [Function.comp, encRule, (hx x (by simp [Expr.mentions, hm])).1]
    simp only [Expr.rename, make, hl, encRule, (hx r (by simp [Expr.mentions])).1, (hx r (by simp [Expr.mentions])).2]

theorem runByHand_rename {vn' fn' : S → Name} {e : Expr S} {text : Bytes} {pos : Nat} (hx : ∀ x ∈ e.mentions, vn (m x) = vn' x ∧ fn (m x) = fn' x) :
    runByHand Q n vn fn text (e.rename m) pos = runByHand Q n vn' fn' text e pos := by
  unfold runByHand
  simp only [make_rename _ hx]

theorem refersTo_mentions {P : S → Prop} : ∀ {e : Expr S}, RefersTo P e → ∀ x ∈ e.mentions, P x := by
  intro e
  induction e with
  | andPredicate _ ih | notPredicate _ ih | oneOrMore _ ih | zeroOrMore _ ih | optional _ ih | subexpression _ ih | hooked _ _ ih => exact fun h => ih h
  | orderedChoice _ _ iha ihb | sequence _ _ iha ihb => exact fun h x hx => (List.mem_append.mp hx).elim (iha h.1 x) (ihb h.2 x)
  | terminal | stringTerminal | matchRange => intro _ x hx; simp [Expr.mentions] at hx
  | varName r | inlined r => intro h x hx; simp only [Expr.mentions, List.mem_singleton] at hx; exact hx ▸ h
  | varNameLR l r => intro h x hx; rcases List.mem_cons.mp hx with rfl | hx; exacts [h.1, h.2 x hx]

theorem erase_plain : ∀ {e : Expr S}, ByHand e → e.Plain → e.erase = e := by
  intro e
  induction e with
  | andPredicate _ ih | notPredicate _ ih | oneOrMore _ ih | zeroOrMore _ ih | optional _ ih | subexpression _ ih =>
    intro h h'; simp only [Expr.erase, ih h h']
  | orderedChoice _ _ iha ihb | sequence _ _ iha ihb => intro h h'; simp only [Expr.erase, iha h.1 h'.1, ihb h.2 h'.2]
  | terminal | stringTerminal | matchRange | varName => intros; rfl
  | varNameLR => exact fun _ h => h.elim
  | inlined | hooked => exact fun h => h.elim

theorem derives_unerase {W : S → Expr S} {x : Expr S} {w : List UInt8} (h : Derives W x w) : ∀ {e : Expr S}, x = e.erase → Derives W e w := by
  induction h with
  | terminal => intro e he; cases e <;> cases he; exact .terminal
  | range h1 h2 => intro e he; cases e <;> cases he; exact .range h1 h2
  | string => intro e he; cases e <;> cases he; exact .string
  | seq _ _ ih1 ih2 => intro e he; cases e <;> cases he; exact .seq (ih1 rfl) (ih2 rfl)
  | left _ ih => intro e he; cases e <;> cases he; exact .left (ih rfl)
  | right _ ih => intro e he; cases e <;> cases he; exact .right (ih rfl)
  | andP => intro e he; cases e <;> cases he; exact .andP
  | notP => intro e he; cases e <;> cases he; exact .notP
  | none => intro e he; cases e <;> cases he; exact .none
  | some _ ih => intro e he; cases e <;> cases he; exact .some (ih rfl)
  | starNil => intro e he; cases e <;> cases he; exact .starNil
  | @starCons a v w _ _ ih1 ih2 => intro e he; cases e <;> cases he; exact .starCons (ih1 rfl) (ih2 rfl)
  | @plus a v w _ _ ih1 ih2 => intro e he; cases e <;> cases he; exact .plus (ih1 rfl) (ih2 (e := .zeroOrMore _) rfl)
  | sub _ ih => intro e he; cases e <;> cases he; exact .sub (ih rfl)
  | ref h _ => intro e he; cases e <;> cases he; exacts [.ref h, .lr h, .inl h]
  | lr => intro e he; cases e <;> cases he
  | inl => intro e he; cases e <;> cases he
  | hook _ ih => intro e he; cases e <;> cases he; exact .hook (ih rfl)
end

section
variable {g : DGrammar} {ord : HashOrd} {n₀ : Nat} {c : GeneratedCode} {W : Bytes → Expr Bytes}

/-- C94: in every generated crate, expressions written by hand with its rules, executed at any position of any text, do what the model's evaluator does. -/
theorem C94_generated_crate_by_hand (hw : g.WF) (hsm : g.text.length < 82000000) (h : generateParser ord n₀ g.text = .ok (.code c))
    (hf : ∀ r ∈ g, r.rhs.Faithful) (hr : g.Runnable) : ∃ (Q : Prog) (body : g.Fn → Expr g.Fn) (start : g.Fn),
      readCrate (crateFiles c) = some Q ∧ Links c body Subtype.val ∧ start.1 = utf8Of "grammar" ∧
        ComputesByHand Q (.plain body start) (fun r => nameOf (variantOf c.variants r.1)) fun r => nameOf r.1 := by
  obtain ⟨body, funs, h1, h2, h3, h4, h5⟩ := generated_crate hw hsm h hf hr
  obtain ⟨start, hs⟩ := Runnable.exists_start hr
  exact ⟨progOf (plainUser Unit plainItems) false c.variants funs, body, start, by
    rw [crateFiles, List.append_assoc]
    exact readCrate_append read_coreFilesOfParser (readCrate_append read_userFiles (by simp [readCrate, h2, h3, genOf])),
    h1, hs, computesByHand (plainUserSim _) h4 (h5 start hs)⟩

theorem exists_lift (start : g.Fn) {e : Expr Bytes} (h : RefersTo g.IsFunction e) : ∃ m : Bytes → g.Fn, ∀ x ∈ e.mentions, (m x).1 = x := by
  classical
  refine ⟨fun x => if hx : x ∈ g.map fun r => lower r.name then ⟨x, hx⟩ else start, fun x hx => ?_⟩
  obtain ⟨r, hr, rfl⟩ := refersTo_mentions h x hx
  show (dite _ _ _ : g.Fn).1 = _
  rw [dif_pos (List.mem_map_of_mem (f := fun r : DRule => lower r.name) hr)]

/-- C94: for a grammar without left recursion, every rule is an entry point: an expression written by hand over its rules, executed at any position of any text,
returns exactly what PEG semantics gives for it with the grammar as written; where PEG semantics gives a result the execution ends, by returning it or
(if 2^32 node keys do not suffice) by a panic. -/
theorem C94_by_hand_computes_peg (hw : g.WF) (hsm : g.text.length < 82000000) (h : generateParser ord n₀ g.text = .ok (.code c))
    (hf : ∀ r ∈ g, r.rhs.Faithful) (hr : g.Runnable) (hs : g.Simple) (hW : g.Means W) : ∃ Q, readCrate (crateFiles c) = some Q ∧
      ∀ (text : Bytes) (e : Expr Bytes) (pos : Nat), ByHand e → e.Plain → RefersTo g.IsFunction e →
        (∀ n v h', runByHand Q n (fun x => nameOf (variantOf c.variants x)) nameOf text e pos = .ok v h' →
          ∃ b q t, v = .tuple [.tuple [.bool b, .int q], t] ∧ Peg W ⟨text⟩ e pos b q) ∧
        ∀ b q, Peg W ⟨text⟩ e pos b q →
          ∃ N, (∀ n, N ≤ n → ∃ t h', runByHand Q n (fun x => nameOf (variantOf c.variants x)) nameOf text e pos = .ok (.tuple [.tuple [.bool b, .int q], t]) h') ∨
            ∀ n, N ≤ n → runByHand Q n (fun x => nameOf (variantOf c.variants x)) nameOf text e pos = .panic := by
  obtain ⟨Q, body, start, hQ, hl, hst, hC⟩ := C94_generated_crate_by_hand hw hsm h hf hr
  have hb := links_bodies hw hsm h hf hl hW
  have hpl := links_plain hw hsm h hf hl hs
  refine ⟨Q, hQ, fun text e pos hbh hpe href => ?_⟩
  obtain ⟨m, hm⟩ := exists_lift start href
  have hag : Agrees Subtype.val (e.rename m) e := rename_agrees hm
  have hrun : ∀ n, runByHand Q n (fun x => nameOf (variantOf c.variants x)) nameOf text e pos =
      runByHand Q n (fun r : g.Fn => nameOf (variantOf c.variants r.1)) (fun r => nameOf r.1) text (e.rename m) pos := fun n =>
    (runByHand_rename fun x hx => by rw [hm x hx]; exact ⟨rfl, rfl⟩).symm
  simp only [hrun]
  refine ⟨fun n v h' hv => ?_, fun b q hp => ?_⟩
  · obtain ⟨k, ⟨b, q, st⟩, hx, rfl⟩ := hC.sound _ _ _ _ _ _ (byHand_rename hbh) hv
    refine ⟨b, q, _, rfl, ?_⟩
    have := C04_memoised_agrees_with_peg body start ⟨text⟩ hpl .init (plain_rename hpe) hx
    have := Agrees.peg hb this hag
    rwa [erase_plain hbh hpe] at this
  · have hp' : Peg body ⟨text⟩ (e.rename m) pos b q := Agrees.unpeg hb hpl hp (plain_rename hpe) hag (erase_plain hbh hpe).symm
    obtain ⟨M, hM⟩ := C05_peg_result_is_computed body start ⟨text⟩ hpl (plain_rename hpe) hp'
    rcases hM M (Nat.le_refl _) 0 _ .init with ⟨st, hx⟩ | hx
    · obtain ⟨N, hN⟩ := hC.complete _ _ _ _ _ (byHand_rename hbh) hx
      exact ⟨N, .inl fun n hn => (hN n hn).elim fun h' e => ⟨_, h', e⟩⟩
    · obtain ⟨N, hN⟩ := (hC.panics _ _ _ (byHand_rename hbh)).mpr ⟨M, _, hx⟩
      exact ⟨N, .inr hN⟩

/-- C94, with left recursion or without (also called by hand, with any involved set): what is accepted from `pos` to `q` is derivable from the expression with
the grammar as written; a failure is at `pos`; and positions stay inside the text. -/
theorem C94_by_hand_is_sound (hw : g.WF) (hsm : g.text.length < 82000000) (h : generateParser ord n₀ g.text = .ok (.code c))
    (hf : ∀ r ∈ g, r.rhs.Faithful) (hr : g.Runnable) (hW : g.Means W) : ∃ Q, readCrate (crateFiles c) = some Q ∧
      ∀ (text : Bytes) (e : Expr Bytes) (pos : Nat), ByHand e → RefersTo g.IsFunction e → ∀ n v h',
        runByHand Q n (fun x => nameOf (variantOf c.variants x)) nameOf text e pos = .ok v h' →
        ∃ b q t, v = .tuple [.tuple [.bool b, .int q], t] ∧ (b = false → q = pos) ∧ (q = pos ∨ pos < q ∧ q ≤ text.length) ∧
          (b = true → Derives W e ((text.take q).drop pos)) := by
  obtain ⟨Q, body, start, hQ, hl, hst, hC⟩ := C94_generated_crate_by_hand hw hsm h hf hr
  have hb := links_bodies hw hsm h hf hl hW
  refine ⟨Q, hQ, fun text e pos hbh href n v h' hv => ?_⟩
  obtain ⟨m, hm⟩ := exists_lift start href
  have hag : Agrees Subtype.val (e.rename m) e := rename_agrees hm
  rw [← runByHand_rename (m := m) (vn := fun r : g.Fn => nameOf (variantOf c.variants r.1)) (fn := fun r => nameOf r.1)
    fun x hx => by rw [hm x hx]; exact ⟨rfl, rfl⟩] at hv
  obtain ⟨k, ⟨b, q, st⟩, hx, rfl⟩ := hC.sound _ _ _ _ _ _ (byHand_rename hbh) hv
  refine ⟨b, q, _, rfl, ?_, ?_, ?_⟩
  · rintro rfl
    exact C01_failed_match_consumes_nothing (.plain body start) ⟨text⟩ (plain_hooksOK _ _ _) .init hx
  · rcases (C02_positions_stay_in_source (.plain body start) ⟨text⟩ (plain_hooksOK _ _ _) .init hx).1 with h | h
    · exact .inl h
    · exact .inr ⟨h.1, Nat.le_trans h.2 (Nat.mod_le _ _)⟩
  · rintro rfl
    have := C24_accepted_text_is_derivable (.plain body start) ⟨text⟩ (plain_hooksOK _ _ _) .init hx
    rw [List.drop_take]
    exact derives_unerase (Agrees.derives hb this hag) rfl
end

/-! ## The crates in the repository -/

/-- C94: the parser of grammar files. -/
theorem C94_dsl_by_hand : ∃ Q, readCrate (coreFilesOfParser ++ userFiles ++ [fileOf Texts.dslRules, fileOf Texts.dslParser]) = some Q ∧
    ComputesByHand Q dslParser (fun r => nameOf (variantOf (Files.dslEnum.map utf8Of) (utf8Of (Files.dslName r)))) fun r => nameOf (utf8Of (Files.dslName r)) :=
  crateCheck_byHand read_coreFilesOfParser read_userFiles (plainUserSim _) (by intro r; cases r <;> decide) dslCrate

/-- C94, example 1. -/
theorem C94_example1_by_hand : ∃ Q, readCrate (coreFiles ++ userFiles ++ [fileOf Texts.ex1Rules, fileOf Texts.ex1Parser]) = some Q ∧
    ComputesByHand Q ex1Parser (fun r => nameOf (variantOf (Files.ex1Enum.map utf8Of) (utf8Of (Files.ex1Name r)))) fun r => nameOf (utf8Of (Files.ex1Name r)) :=
  crateCheck_byHand read_coreFiles read_userFiles (plainUserSim _) (by intro r; cases r <;> decide) ex1Crate

/-- C94, example 2. -/
theorem C94_example2_by_hand : ∃ Q, readCrate (coreFiles ++ userFiles ++ [fileOf Texts.ex2Rules, fileOf Texts.ex2Parser]) = some Q ∧
    ComputesByHand Q ex2Parser (fun r => nameOf (variantOf (Files.ex2Enum.map utf8Of) (utf8Of (Files.ex2Name r)))) fun r => nameOf (utf8Of (Files.ex2Name r)) :=
  crateCheck_byHand read_coreFiles read_userFiles (plainUserSim _) (by intro r; cases r <;> decide) ex2Crate

/-- C94, example 3. -/
theorem C94_example3_by_hand : ∃ Q, readCrate (coreFiles ++ userFiles ++ [fileOf Texts.ex3Rules, fileOf Texts.ex3Parser]) = some Q ∧
    ComputesByHand Q ex3Parser (fun r => nameOf (variantOf (Files.ex3Enum.map utf8Of) (utf8Of (Files.ex3Name r)))) fun r => nameOf (utf8Of (Files.ex3Name r)) :=
  crateCheck_byHand read_coreFiles read_userFiles (plainUserSim _) (by intro r; cases r <;> decide) ex3Crate

/-- C94, example 4. -/
theorem C94_example4_by_hand : ∃ Q, readCrate (coreFiles ++ userFiles ++ [fileOf Texts.ex4Rules, fileOf Texts.ex4Parser]) = some Q ∧
    ComputesByHand Q ex4Parser (fun r => nameOf (variantOf (Files.ex4Enum.map utf8Of) (utf8Of (Files.ex4Name r)))) fun r => nameOf (utf8Of (Files.ex4Name r)) :=
  crateCheck_byHand read_coreFiles read_userFiles (plainUserSim _) (by intro r; cases r <;> decide) ex4Crate

/-- C94, example 5. -/
theorem C94_example5_by_hand : ∃ Q, readCrate (coreFiles ++ userFiles ++ [fileOf Texts.ex5Rules, fileOf Texts.ex5Parser]) = some Q ∧
    ComputesByHand Q ex5Parser (fun r => nameOf (variantOf (Files.ex5Enum.map utf8Of) (utf8Of (Files.ex5Name r)))) fun r => nameOf (utf8Of (Files.ex5Name r)) :=
  crateCheck_byHand read_coreFiles read_userFiles (plainUserSim _) (by intro r; cases r <;> decide) ex5Crate

/-- C94, example 6. -/
theorem C94_example6_by_hand : ∃ Q, readCrate (coreFiles ++ userFiles ++ [fileOf Texts.ex6Rules, fileOf Texts.ex6Parser]) = some Q ∧
    ComputesByHand Q ex6Parser (fun r => nameOf (variantOf (Files.ex6Enum.map utf8Of) (utf8Of (Files.ex6Name r)))) fun r => nameOf (utf8Of (Files.ex6Name r)) :=
  crateCheck_byHand read_coreFiles read_userFiles (plainUserSim _) (by intro r; cases r <;> decide) ex6Crate

/-- C94, example 7. -/
theorem C94_example7_by_hand : ∃ Q, readCrate (coreFiles ++ userFiles ++ [fileOf Texts.ex7Rules, fileOf Texts.ex7Parser]) = some Q ∧
    ComputesByHand Q ex7Parser (fun r => nameOf (variantOf (Files.ex7Enum.map utf8Of) (utf8Of (Files.ex7Name r)))) fun r => nameOf (utf8Of (Files.ex7Name r)) :=
  crateCheck_byHand read_coreFiles read_userFiles (plainUserSim _) (by intro r; cases r <;> decide) ex7Crate

/-- C94, example 8. -/
theorem C94_example8_by_hand : ∃ Q, readCrate (coreFiles ++ userFiles ++ [fileOf Texts.ex8Rules, fileOf Texts.ex8Parser]) = some Q ∧
    ComputesByHand Q ex8Parser (fun r => nameOf (variantOf (Files.ex8Enum.map utf8Of) (utf8Of (Files.ex8Name r)))) fun r => nameOf (utf8Of (Files.ex8Name r)) :=
  crateCheck_byHand read_coreFiles read_userFiles (plainUserSim _) (by intro r; cases r <;> decide) ex8Crate

/-- C94, example 9. -/
theorem C94_example9_by_hand : ∃ Q, readCrate (coreFiles ++ userFiles ++ [fileOf Texts.ex9Rules, fileOf Texts.ex9Parser]) = some Q ∧
    ComputesByHand Q ex9Parser (fun r => nameOf (variantOf (Files.ex9Enum.map utf8Of) (utf8Of (Files.ex9Name r)))) fun r => nameOf (utf8Of (Files.ex9Name r)) :=
  crateCheck_byHand read_coreFiles read_userFiles (plainUserSim _) (by intro r; cases r <;> decide) ex9Crate

/-- C94, example 10. -/
theorem C94_example10_by_hand : ∃ Q, readCrate (coreFiles ++ userFiles ++ [fileOf Texts.ex10Rules, fileOf Texts.ex10Parser]) = some Q ∧
    ComputesByHand Q ex10Parser (fun r => nameOf (variantOf (Files.ex10Enum.map utf8Of) (utf8Of (Files.ex10Name r)))) fun r => nameOf (utf8Of (Files.ex10Name r)) :=
  crateCheck_byHand read_coreFiles read_userFiles (plainUserSim _) (by intro r; cases r <;> decide) ex10Crate

/-! ### The hypotheses are met -/

/-- The crate of `<Grammar>=('x',<Grammar>)/'y';`, and `_sequence(&_terminal(b'a'), &_var_name(&user_state, Rules::Grammar, &context, grammar))` at position 1 of
`baxy`: it ends at 4. -/
example (ord : HashOrd) : ∃ c Q, (∃ n, generateParser ord n rightG.text = .ok (.code c)) ∧ readCrate (crateFiles c) = some Q ∧
    ∃ N, (∀ n, N ≤ n → ∃ t h', runByHand Q n (fun x => nameOf (variantOf c.variants x)) nameOf (bytesOf "baxy")
        (.sequence (.terminal 97) (.varName (lower (nm "Grammar")))) 1 = .ok (.tuple [.tuple [.bool true, .int 4], t]) h') ∨
      ∀ n, N ≤ n → runByHand Q n (fun x => nameOf (variantOf c.variants x)) nameOf (bytesOf "baxy") (.sequence (.terminal 97) (.varName (lower (nm "Grammar")))) 1 = .panic := by
  have hf : ∀ r ∈ rightG, r.rhs.Faithful := by decide +kernel
  have hlr : ∀ x, ¬ rightG.LeftRecursive x := not_leftRecursive_of (by decide +kernel)
  obtain ⟨c, N, hN, -⟩ := round_trip rightG_wf (by decide +kernel) (not_dangling_of (by decide +kernel)) hf (by
    intro r hr k hk; simp only [rightG, List.mem_singleton] at hr; subst hr; cases hk) ord
  have hgen := hN N (Nat.le_refl _)
  let W : Bytes → Expr Bytes := fun _ => .orderedChoice (.subexpression (.sequence (.terminal 120) (.varName (lower (nm "Grammar"))))) (.terminal 121)
  have hW : rightG.Means W := by
    intro r hr
    simp only [rightG, List.mem_singleton] at hr
    subst hr
    rfl
  obtain ⟨Q, hQ, h⟩ := C94_by_hand_computes_peg rightG_wf (by decide +kernel) hgen hf rightG_runnable ⟨by decide +kernel, hlr⟩ hW
  refine ⟨c, Q, ⟨N, hgen⟩, hQ, (h _ (.sequence (.terminal 97) (.varName (lower (nm "Grammar")))) _ ⟨trivial, trivial⟩ ⟨trivial, trivial⟩ ⟨trivial, _, List.mem_singleton.mpr rfl, rfl⟩).2 true 4 ?_⟩
  exact .seq_ok (.terminal_ok (by decide) rfl) (.ref (.choice_left (.sub_ok (.seq_ok (.terminal_ok (by decide) rfl) (.ref (.choice_right
    (.sub_fail (.seq_fail1 (.terminal_fail (by decide)))) (.terminal_ok (by decide) rfl)))))))

/-- The left recursive rule of the sample grammar, called by hand with its involved set. -/
example : ByHand (.varNameLR [lower (nm "Expr")] (lower (nm "Expr"))) ∧ RefersTo sample.IsFunction (.varNameLR [lower (nm "Expr")] (lower (nm "Expr"))) := by
  have h : sample.IsFunction (lower (nm "Expr")) := ⟨_, List.mem_cons_of_mem _ (List.mem_cons_self ..), rfl⟩
  exact ⟨trivial, h, by simpa using h⟩

end PP.Mini
