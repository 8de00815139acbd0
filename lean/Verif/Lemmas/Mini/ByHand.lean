import Verif.Lemmas.Mini.Parse
import Verif.Lemmas.Mini.Check
import Verif.Spec.Mini.ByHand

/-! # Expressions written by hand do what the model's evaluator does -/
namespace PP.Mini
open PP.Gen
attribute [local congr] Res.bind_congr loopN_congr forN_congr
section
variable {R U : Type} {W : World R U} [DecidableEq R] {us : User U} {fn : R → Name} {P : Parser R U}

theorem make_ok : ∀ e : Expr R, ByHand e → ∃ v, CloRel W us fn v e ∧ ∀ n h, make W.Q (n + 1) W.vn fn W.u W.a e h = .ok v h := by
  intro e
  induction e with
  | andPredicate e ih =>
    intro he; obtain ⟨v, hv, hm⟩ := ih he
    exact ⟨_, .and hv, fun n h => by rw [make, hm, Res.bind_ok]; exact make_run (F := Ast._and_predicate) W.core.f__and_predicate rfl rfl rfl n h⟩
  | notPredicate e ih =>
    intro he; obtain ⟨v, hv, hm⟩ := ih he
    exact ⟨_, .not hv, fun n h => by rw [make, hm, Res.bind_ok]; exact make_run (F := Ast._not_predicate) W.core.f__not_predicate rfl rfl rfl n h⟩
  | oneOrMore e ih =>
    intro he; obtain ⟨v, hv, hm⟩ := ih he
    exact ⟨_, .plus hv, fun n h => by rw [make, hm, Res.bind_ok]; exact make_run (F := Ast._one_or_more) W.core.f__one_or_more rfl rfl rfl n h⟩
  | zeroOrMore e ih =>
    intro he; obtain ⟨v, hv, hm⟩ := ih he
    exact ⟨_, .star hv, fun n h => by rw [make, hm, Res.bind_ok]; exact make_run (F := Ast._zero_or_more) W.core.f__zero_or_more rfl rfl rfl n h⟩
  | optional e ih =>
    intro he; obtain ⟨v, hv, hm⟩ := ih he
    exact ⟨_, .opt hv, fun n h => by rw [make, hm, Res.bind_ok]; exact make_run (F := Ast._optional) W.core.f__optional rfl rfl rfl n h⟩
  | subexpression e ih =>
    intro he; obtain ⟨v, hv, hm⟩ := ih he
    exact ⟨_, .sub hv, fun n h => by rw [make, hm, Res.bind_ok]; exact make_run (F := Ast._subexpression) W.core.f__subexpression rfl rfl rfl n h⟩
  | orderedChoice a b iha ihb =>
    intro he; obtain ⟨v, hv, hm⟩ := iha he.1; obtain ⟨w, hw, hm'⟩ := ihb he.2
    exact ⟨_, .choice hv hw, fun n h => by
      rw [make, hm, Res.bind_ok, hm', Res.bind_ok]; exact make_run (F := Ast._ordered_choice) W.core.f__ordered_choice rfl rfl rfl n h⟩
  | sequence a b iha ihb =>
    intro he; obtain ⟨v, hv, hm⟩ := iha he.1; obtain ⟨w, hw, hm'⟩ := ihb he.2
    exact ⟨_, .seq hv hw, fun n h => by rw [make, hm, Res.bind_ok, hm', Res.bind_ok]; exact make_run (F := Ast._sequence) W.core.f__sequence rfl rfl rfl n h⟩
  | terminal c => exact fun _ => ⟨_, .terminal c, fun n h => make_run (F := Ast._terminal) W.core.f__terminal rfl rfl rfl n h⟩
  | stringTerminal d =>
    exact fun _ => ⟨_, .str d, fun n h => make_run (F := Ast._string_terminal_opt_ascii) W.core.f__string_terminal_opt_ascii rfl rfl rfl n h⟩
  | matchRange lo hi =>
    exact fun _ => ⟨_, .range lo hi, fun n h => make_run (F := Ast._ordered_choice_match_range) W.core.f__ordered_choice_match_range rfl rfl rfl n h⟩
  | varName r => exact fun _ => ⟨_, .var r, fun n h => make_run (F := Ast._var_name) W.core.f__var_name rfl rfl rfl n h⟩
  | varNameLR l r =>
    exact fun _ => ⟨_, .lr l r, fun n h => make_run (F := Ast._var_name_indirect_left_recursion) W.core.f__var_name_indirect_left_recursion rfl rfl rfl n h⟩
  | inlined | hooked => exact fun h => h.elim

omit [DecidableEq R] in
theorem make_le {Q : Prog} {vn fn : R → Name} {u c n m : Nat} (hnm : n ≤ m) : ∀ (e : Expr R) (h : Heap), (make Q n vn fn u c e h).le (make Q m vn fn u c e h) := by
  intro e
  induction e with
  | andPredicate _ ih | notPredicate _ ih | oneOrMore _ ih | zeroOrMore _ ih | optional _ ih | subexpression _ ih =>
    intro h; exact (ih h).bind fun _ _ => run_le hnm _ _ _
  | orderedChoice _ _ iha ihb | sequence _ _ iha ihb =>
    intro h; exact (iha h).bind fun _ _ => (ihb _).bind fun _ _ => run_le hnm _ _ _
  | terminal | stringTerminal | matchRange | varName | varNameLR => intro h; exact run_le hnm _ _ _
  | inlined | hooked => intro h; exact .rfl

omit [DecidableEq R] in
theorem runByHand_le {Q : Prog} {vn fn : R → Name} {text : Bytes} {e : Expr R} {pos n m : Nat} (hnm : n ≤ m) :
    (runByHand Q n vn fn text e pos).le (runByHand Q m vn fn text e pos) := by
  unfold runByHand
  split
  · exact .rfl
  · refine (run_le hnm _ _ _).bind fun _ _ => (run_le hnm _ _ _).bind fun _ _ => (run_le hnm _ _ _).bind fun _ _ => (make_le hnm _ _).bind fun _ _ =>
      (run_le hnm _ _ _).bind fun _ _ => ?_
    split
    · exact (run_le hnm _ _ _).bind fun _ _ => .rfl
    · exact .rfl

theorem byHand_sim (G : Gen W us fn P) {d : Dir} {m n : Nat} (hn : 3 ≤ n) (he : Enough d n m) (ha : W.a = 1) (hu : W.u = 2)
    (hv : W.vn P.grammar = n!"Grammar") (hg : W.Q.isVariant n!"Rules" n!"Grammar" = true) {w : Val} (hU : W.ur P.userInit w)
    (hnew : ∀ n h, run W.Q (n + 1) (.fn (some n!"UserState") n!"new") [] h = .ok w h)
    {k : Nat} (hk : W.Q.const? n!"RULES_SIZE" = some k) (hk' : k ≤ 4294967296) (e : Expr R) (hb : ByHand e) (pos : Nat) :
    Sim d (fun v _ x => v = encSeen W.vn x) (runByHand W.Q n W.vn fn W.src.bytes e pos) (eval P W.src m e 0 pos (St.new P.grammar P.userInit)) := by
  obtain ⟨n, rfl⟩ : ∃ j, n = j + 3 := ⟨n - 3, by omega⟩
  have hxy : W.src.bytes.length % 4294967296 * k < 18446744073709551616 := by
    have : W.src.bytes.length % 4294967296 < 4294967296 := Nat.mod_lt _ (by omega)
    have := Nat.mul_le_mul (Nat.le_sub_one_of_lt this) hk'
    omega
  have e1 := source_new_run (W := W) (n := n + 2) (h := []) W.src.bytes
  have e2 := context_new_run (W := W) (n := n) (h := []) (W.src.bytes.length % 4294967296) k hv hg hxy
  rw [List.nil_append] at e2
  have e3 := hnew (n + 2) [encPub W.vn (Publisher.new P.grammar), ctxVal W.vn [] [] none (Publisher.new P.grammar)]
  have hgood : W.Good (St.new P.grammar P.userInit) [encPub W.vn (Publisher.new P.grammar), ctxVal W.vn [] [] none (Publisher.new P.grammar), w] := by
    refine ⟨⟨[], [], by rw [ha]; rfl, fun _ _ => rfl, fun _ _ => rfl⟩, ⟨w, by rw [hu]; rfl, hU⟩, by simp [St.new, Publisher.new]⟩
  obtain ⟨v, hv', hm⟩ := make_ok (W := W) (us := us) (fn := fn) e hb
  have hm := hm (n + 2) [encPub W.vn (Publisher.new P.grammar), ctxVal W.vn [] [] none (Publisher.new P.grammar), w]
  rw [ha, hu] at hm
  have hs := closures_sim G m (n + 3) v e hv' he 0 pos _ _ hgood
  unfold runByHand
  rw [hk]
  simp only [e1, Res.bind_ok, e2, List.length_cons, List.length_nil, List.cons_append, List.nil_append, Nat.zero_add]
  rw [e3]
  simp only [Res.bind_ok, List.length_cons, List.length_nil, List.cons_append, List.nil_append, Nat.zero_add, Nat.reduceAdd]
  rw [hm]
  simp only [Res.bind_ok]
  generalize run W.Q (n + 3) v _ _ = r at hs ⊢
  generalize eval P W.src m e 0 pos (St.new P.grammar P.userInit) = o at hs ⊢
  cases hs with
  | oofL e => exact .oofL e
  | oofR e => exact .oofR e
  | panic => exact .panic
  | @ok v h₂ x hK =>
    obtain ⟨b, q, st⟩ := x
    obtain ⟨rfl, hg₂, -⟩ := hK
    obtain ⟨l, l', hctx, -, -⟩ := hg₂.ctx
    rw [ha] at hctx
    simp only [Res.bind_ok, hctx, get_publisher_run]
    exact .ok rfl
end

section
variable {R U : Type} [DecidableEq R] {br : Bool} {us : User U} {vs : List Bytes} {funs : List Text.Fun} {name var : R → Bytes} {P : Parser R U}

theorem computesByHand (hu : UserSim us P) (h : NamesOK us.items vs funs) (r : Rules us.hooks vs funs name var P) :
    ComputesByHand (progOf us br vs funs) P (fun r => nameOf (var r)) (fun r => nameOf (name r)) := by
  have key : ∀ (d : Dir) (input : Bytes) (e : Expr R) (pos n m : Nat), ByHand e → 3 ≤ n → Enough d n m →
      Sim d (fun v _ x => v = encSeen (fun r => nameOf (var r)) x) (runByHand (progOf us br vs funs) n (fun r => nameOf (var r)) (fun r => nameOf (name r)) input e pos)
        (eval P ⟨input⟩ m e 0 pos (St.new P.grammar P.userInit)) := by
    intro d input e pos n m hb hn he
    have C := world_crate (br := br) hu h r input
    have hs : utf8Of "Grammar" = var P.grammar := r.low P.grammar _ r.mem (by rw [r.start]; decide +kernel)
    have hv : (worldOf br hu.ok h r input).vn P.grammar = n!"Grammar" := by
      show nameOf (var P.grammar) = _
      rw [← hs]; decide +kernel
    have hg := C.named.variants _ r.mem
    rw [hs, show nameOf (var P.grammar) = n!"Grammar" from hv] at hg
    have hk : (worldOf br hu.ok h r input).Q.const? n!"RULES_SIZE" = some vs.length := (prog_const hu.ok _).trans (if_pos rfl)
    exact byHand_sim (W := worldOf br hu.ok h r input) C.gen hn he rfl rfl hv hg hu.init (fun n h' => hu.new _ n h' (hasUser hu.ok h)) hk h.size e hb pos
  have up : ∀ input (e : Expr R) pos n v h', runByHand (progOf us br vs funs) n (fun r => nameOf (var r)) (fun r => nameOf (name r)) input e pos = .ok v h' →
      runByHand (progOf us br vs funs) (n + 3) (fun r => nameOf (var r)) (fun r => nameOf (name r)) input e pos = .ok v h' := by
    intro input e pos n v h' hx
    rcases runByHand_le (Q := progOf us br vs funs) (vn := fun r => nameOf (var r)) (fn := fun r => nameOf (name r)) (text := input) (e := e) (pos := pos)
      (show n ≤ n + 3 by omega) with h | h
    · rw [hx] at h; cases h
    · rw [← h, hx]
  refine ⟨fun input e pos n v hp hb hx => ?_, fun input e pos m x hb hx => ⟨8 * m + 3, fun n hn => ?_⟩, fun input e pos hb => ⟨?_, ?_⟩, fun input e pos n hb => ?_⟩
  · have := key .sound input e pos (n + 3) (n + 3) hb (by omega) (Nat.le_refl _)
    rw [up _ _ _ _ _ _ hx] at this
    generalize hq : eval P ⟨input⟩ (n + 3) e 0 pos _ = q at this
    cases this with
    | oofR e => cases e
    | ok k => exact ⟨_, _, hq, k⟩
  · have := key .complete input e pos n m hb (by omega) (show 8 * m ≤ n by omega)
    rw [hx] at this
    generalize runByHand (progOf us br vs funs) n _ _ input e pos = q at this ⊢
    cases this with
    | oofL e => cases e
    | ok k => exact ⟨_, by rw [k]⟩
  · rintro ⟨N, hN⟩
    have := key .sound input e pos (N + 3) (N + 3) hb (by omega) (Nat.le_refl _)
    rw [hN (N + 3) (by omega)] at this
    generalize hq : eval P ⟨input⟩ (N + 3) e 0 pos _ = q at this
    cases this with
    | oofR e => cases e
    | panic => exact ⟨_, _, hq⟩
  · rintro ⟨m, p, hx⟩
    refine ⟨8 * m + 3, fun n hn => ?_⟩
    have := key .complete input e pos n m hb (by omega) (show 8 * m ≤ n by omega)
    rw [hx] at this
    generalize hq : runByHand (progOf us br vs funs) n _ _ input e pos = q at this
    cases this with
    | oofL e => cases e
    | panic => rfl
  · have := key .sound input e pos (n + 3) (n + 3) hb (by omega) (Nat.le_refl _)
    rcases runByHand_le (Q := progOf us br vs funs) (vn := fun r => nameOf (var r)) (fn := fun r => nameOf (name r)) (text := input) (e := e) (pos := pos)
      (show n ≤ n + 3 by omega) with h | h
    · exact .inl h
    · rw [h]
      generalize runByHand (progOf us br vs funs) (n + 3) _ _ input e pos = q at this ⊢
      generalize eval P ⟨input⟩ (n + 3) e 0 pos _ = q' at this
      cases this with
      | oofL e => exact .inl rfl
      | oofR e => cases e
      | panic => exact .inr (.inl rfl)
      | ok k => exact .inr (.inr ⟨_, _, rfl⟩)
end

theorem crateCheck_byHand {R U : Type} [DecidableEq R] {core user : List Bytes} {us : User U} (hcore : readCrate core = some Ast.core)
    (huser : readCrate user = some us.items) {rulesRs parserRs : Bytes} {rules : List R}
    {name : R → Bytes} {enum : List Bytes} {P : Parser R U} (hu : UserSim us P) (hall : ∀ r, r ∈ rules)
    (h : crateCheck us.items us.hooks rulesRs parserRs rules P.body name enum P.grammar = true) :
    ∃ Q, readCrate (core ++ user ++ [rulesRs, parserRs]) = some Q ∧ ComputesByHand Q P (fun r => nameOf (variantOf enum (name r))) fun r => nameOf (name r) := by
  unfold crateCheck at h
  split at h
  · cases h
  · rename_i items _
    simp only [Bool.and_eq_true, decide_eq_true_eq, List.all_eq_true, List.any_eq_true] at h
    obtain ⟨⟨⟨⟨⟨⟨⟨h1, h2⟩, h3⟩, h4⟩, h5⟩, h7⟩, -⟩, h6⟩ := h
    refine ⟨progOf us true enum (Text.funsOf items), ?_, ?_⟩
    · rw [List.append_assoc]
      refine readCrate_append hcore (readCrate_append huser ?_)
      simp [readCrate, h1, h2]
    · exact computesByHand hu (namesOK_ok h3) (variantOf_rules (namesOK_ok h3) (fun r s e => nodup_inj h4 (hall r) (hall s) e)
        (fun r => let ⟨f, hf, e, e'⟩ := h6 r (hall r); ⟨f, hf, e, e'⟩) h5 h7)

end PP.Mini
