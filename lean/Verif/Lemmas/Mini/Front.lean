import Verif.Lemmas.Mini.Parse
import Verif.Lemmas.Mini.Check
import Verif.Spec.Mini.Front

/-! # The front end of `generate_parser` does what the model says -/
namespace PP.Mini
open PP.Gen
attribute [local congr] Res.bind_congr loopN_congr forN_congr
section
variable {R U : Type} {W : World R U} {n : Nat} [DecidableEq R] {us : User U} {fn : R → Name} {P : Parser R U} {m : Nat}

theorem front_run (G : Gen W us fn P) (he : 8 * (m + 1) ≤ n) (ha : W.a = 1) (hu : W.u = 2) (hv : W.vn P.grammar = n!"Grammar")
    (hg : W.Q.isVariant n!"Rules" n!"Grammar" = true) {w : Val} (hU : W.ur P.userInit w)
    (hnew : ∀ n h, run W.Q (n + 1) (.fn (some n!"UserState") n!"new") [] h = .ok w h) (hfn : fn P.grammar = n!"grammar")
    {k : Nat} (hk : W.Q.const? n!"RULES_SIZE" = some k) (hk' : k ≤ 4294967296) (hl : W.src.bytes.length < 4294967296)
    {b : Bool} {q : Nat} {st : St R U} (h : eval P W.src m (P.body P.grammar) 0 0 (St.new P.grammar P.userInit) = .ok (b, q, st)) :
    ∃ ctx h', runGrammar W.Q n W.src.bytes = .ok (.tuple [.tuple [.bool b, .int q], ctx]) h' ∧
      ∀ t, st.pub.clearFalse P.grammar m = .ok t → ∃ h'', runClear W.Q n W.src.bytes = .ok (encPub W.vn t) h'' := by
  obtain ⟨n, rfl⟩ : ∃ j, n = j + 3 := ⟨n - 3, by omega⟩
  have hxy : W.src.bytes.length * k < 18446744073709551616 := by
    have := Nat.mul_le_mul (Nat.le_sub_one_of_lt hl) hk'
    omega
  have e1 := source_new_run (W := W) (n := n + 2) (h := []) W.src.bytes
  have e2 := context_new_run (W := W) (n := n) (h := []) W.src.bytes.length k hv hg hxy
  rw [List.nil_append] at e2
  have e3 := hnew (n + 2) [encPub W.vn (Publisher.new P.grammar), ctxVal W.vn [] [] none (Publisher.new P.grammar)]
  have hgood : W.Good (St.new P.grammar P.userInit) [encPub W.vn (Publisher.new P.grammar), ctxVal W.vn [] [] none (Publisher.new P.grammar), w] := by
    refine ⟨⟨[], [], by rw [ha]; rfl, fun _ _ => rfl, fun _ _ => rfl⟩, ⟨w, by rw [hu]; rfl, hU⟩, by simp [St.new, Publisher.new]⟩
  have hrule := G.rule P.grammar .complete (n + 2) (eval P W.src m (P.body P.grammar))
    (fun v hv => closures_sim G m (n + 2) v _ hv (show 8 * m ≤ n + 2 by omega)) (fun _ => by omega)
  have hs := hrule 0 0 _ _ hgood
  rw [h, ha, hu, hfn] at hs
  generalize hr : run W.Q (n + 2 + 1) (.fn none n!"grammar") _ _ = r at hs
  cases hs with
  | oofL e => cases e
  | @ok v h₂ _ hK =>
    obtain ⟨rfl, hg₂, -⟩ := hK
    obtain ⟨l, l', hctx, -, -⟩ := hg₂.ctx
    rw [ha] at hctx
    have e : runGrammar W.Q (n + 3) W.src.bytes = .ok (.tuple [.tuple [.bool b, .int q], ctxVal W.vn l l' st.cache.active st.pub]) h₂ := by
      unfold runGrammar
      rw [hk]
      simp only [e1, Res.bind, e2, List.length_cons, List.length_nil, List.cons_append, List.nil_append, Nat.zero_add]
      rw [e3]
      simp only [List.length_cons, List.length_nil, List.cons_append, List.nil_append, Nat.zero_add, Nat.reduceAdd]
      rw [hr]
      simp only [hctx]
    refine ⟨_, _, e, fun t ht => ?_⟩
    have hcf : ClearFuel .complete (n + 2) m := by
      simp only [ClearFuel]; omega
    have hs := clear_false_sim (W := W) hcf st.pub h₂ hv hg (Nat.lt_of_le_of_lt hg₂.len (by decide))
    rw [ht] at hs
    unfold runClear
    rw [e]
    simp only [Res.bind]
    rw [get_publisher_run]
    simp only
    generalize run W.Q (n + 2 + 1) (.fn (some n!"BasicPublisher") n!"clear_false") _ _ = r at hs
    cases hs with
    | oofL e => cases e
    | @ok v h₃ _ hK =>
      obtain ⟨rfl, -⟩ := hK
      exact ⟨_, rfl⟩
end

section
variable {R U : Type} [DecidableEq R] {br : Bool} {us : User U} {vs : List Bytes} {funs : List Text.Fun} {name var : R → Bytes} {P : Parser R U}

/-- The front end computes what the model computes. -/
theorem front_computes (hu : UserSim us P) (h : NamesOK us.items vs funs) (r : Rules us.hooks vs funs name var P) {input : Bytes} (hl : input.length < 4294967296)
    {m n : Nat} (he : 8 * (m + 1) ≤ n) {b : Bool} {q : Nat} {st : St R U} (hev : eval P ⟨input⟩ m (P.body P.grammar) 0 0 (St.new P.grammar P.userInit) = .ok (b, q, st)) :
    ∃ ctx h', runGrammar (progOf us br vs funs) n input = .ok (.tuple [.tuple [.bool b, .int q], ctx]) h' ∧
      ∀ t, st.pub.clearFalse P.grammar m = .ok t → ∃ h'', runClear (progOf us br vs funs) n input = .ok (encPub (fun r => nameOf (var r)) t) h'' := by
  have C := world_crate (br := br) hu h r input
  have hs : utf8Of "Grammar" = var P.grammar := r.low P.grammar _ r.mem (by rw [r.start]; decide +kernel)
  have hn : nameOf (name P.grammar) = n!"grammar" := by rw [r.start]; decide +kernel
  have hv : (worldOf br hu.ok h r input).vn P.grammar = n!"Grammar" := by
    show nameOf (var P.grammar) = _
    rw [← hs]; decide +kernel
  have hg := C.named.variants _ r.mem
  rw [hs, show nameOf (var P.grammar) = n!"Grammar" from hv] at hg
  have hk : (worldOf br hu.ok h r input).Q.const? n!"RULES_SIZE" = some vs.length := (prog_const hu.ok _).trans (if_pos rfl)
  exact front_run (W := worldOf br hu.ok h r input) C.gen he rfl rfl hv hg hu.init (fun n h' => hu.new _ n h' (hasUser hu.ok h)) hn hk h.size hl hev
end

theorem crateCheck_front {R U : Type} [DecidableEq R] {core user : List Bytes} {us : User U} (hcore : readCrate core = some Ast.core)
    (huser : readCrate user = some us.items) {rulesRs parserRs : Bytes} {rules : List R}
    {name : R → Bytes} {enum : List Bytes} {P : Parser R U} (hu : UserSim us P) (hall : ∀ r, r ∈ rules)
    (h : crateCheck us.items us.hooks rulesRs parserRs rules P.body name enum P.grammar = true) :
    ∃ Q, readCrate (core ++ user ++ [rulesRs, parserRs]) = some Q ∧ ∀ (input : Bytes), input.length < 4294967296 →
      ∀ (m n : Nat), 8 * (m + 1) ≤ n → ∀ b q st, eval P ⟨input⟩ m (P.body P.grammar) 0 0 (St.new P.grammar P.userInit) = .ok (b, q, st) →
        ∃ ctx h', runGrammar Q n input = .ok (.tuple [.tuple [.bool b, .int q], ctx]) h' ∧
          ∀ t, st.pub.clearFalse P.grammar m = .ok t → ∃ h'', runClear Q n input = .ok (encPub (fun r => nameOf (variantOf enum (name r))) t) h'' := by
  unfold crateCheck at h
  split at h
  · cases h
  · rename_i items _
    simp only [Bool.and_eq_true, decide_eq_true_eq, List.all_eq_true, List.any_eq_true] at h
    obtain ⟨⟨⟨⟨⟨⟨⟨h1, h2⟩, h3⟩, h4⟩, h5⟩, h7⟩, -⟩, h6⟩ := h
    refine ⟨progOf us true enum (Text.funsOf items), ?_, ?_⟩
    · rw [List.append_assoc]
      refine readCrate_append hcore (readCrate_append huser ?_)
      simp [readCrate, h1, h2]
    · intro input hl m n he b q st hev
      exact front_computes hu (namesOK_ok h3) (variantOf_rules (namesOK_ok h3) (fun r s e => nodup_inj h4 (hall r) (hall s) e)
        (fun r => let ⟨f, hf, e, e'⟩ := h6 r (hall r); ⟨f, hf, e, e'⟩) h5 h7) hl he hev

end PP.Mini
