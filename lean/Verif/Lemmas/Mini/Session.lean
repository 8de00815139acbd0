import Verif.Lemmas.Mini.ByHand
import Verif.Spec.Mini.Session

/-! # Sessions: several calls by hand on one context do what the model's evaluator does -/
namespace PP.Mini
open PP.Gen
attribute [local congr] Res.bind_congr loopN_congr forN_congr
section
variable {R U : Type} {W : World R U} [DecidableEq R] {us : User U} {fn : R → Name} {P : Parser R U}

theorem callAll_sim (G : Gen W us fn P) {d : Dir} {m n : Nat} (he : Enough d (n + 1) m) : ∀ (l : List (Expr R × Nat)), (∀ c ∈ l, ByHand c.1) → ∀ st h, W.Good st h →
    Sim d (fun v h' x => v = x.1.map encAnswer ∧ W.Good x.2 h') (callAll W.Q (n + 1) W.vn fn W.u W.a (encSource W.src) l h) (evalAll P W.src m l st) := by
  intro l
  induction l with
  | nil => intro _ st h hg; exact .ok ⟨rfl, hg⟩
  | cons c l ih =>
    obtain ⟨e, pos⟩ := c
    intro hb st h hg
    obtain ⟨v, hv, hm⟩ := make_ok (W := W) (us := us) (fn := fn) e (hb _ (List.mem_cons_self ..))
    rw [callAll, hm, Res.bind_ok, evalAll]
    refine (closures_sim G m (n + 1) v e hv he 0 pos _ _ hg).bind ?_
    rintro _ h₁ ⟨b, q, st₁⟩ ⟨rfl, hg₁, -⟩
    refine (ih (fun c hc => hb c (List.mem_cons_of_mem _ hc)) st₁ h₁ hg₁).bind ?_
    rintro _ h₂ ⟨rs, st₂⟩ ⟨rfl, hg₂⟩
    exact .ok ⟨rfl, hg₂⟩

omit [DecidableEq R] in
theorem callAll_le {Q : Prog} {vn fn : R → Name} {u c n m : Nat} {source : Val} (hnm : n ≤ m) : ∀ (l : List (Expr R × Nat)) (h : Heap),
    (callAll Q n vn fn u c source l h).le (callAll Q m vn fn u c source l h) := by
  intro l
  induction l with
  | nil => intro h; exact .rfl
  | cons c l ih =>
    intro h
    exact (make_le hnm _ _).bind fun _ _ => (run_le hnm _ _ _).bind fun _ _ => (ih _).bind fun _ _ => .rfl

omit [DecidableEq R] in
theorem runSession_le {Q : Prog} {vn fn : R → Name} {text : Bytes} {calls : List (Expr R × Nat)} {n m : Nat} (hnm : n ≤ m) :
    (runSession Q n vn fn text calls).le (runSession Q m vn fn text calls) := by
  unfold runSession
  split
  · exact .rfl
  · refine (run_le hnm _ _ _).bind fun _ _ => (run_le hnm _ _ _).bind fun _ _ => (run_le hnm _ _ _).bind fun _ _ => (callAll_le hnm _ _).bind fun _ _ => ?_
    split
    · exact (run_le hnm _ _ _).bind fun _ _ => .rfl
    · exact .rfl

theorem session_sim (G : Gen W us fn P) {d : Dir} {m n : Nat} (hn : 3 ≤ n) (he : Enough d n m) (ha : W.a = 1) (hu : W.u = 2)
    (hv : W.vn P.grammar = n!"Grammar") (hg : W.Q.isVariant n!"Rules" n!"Grammar" = true) {w : Val} (hU : W.ur P.userInit w)
    (hnew : ∀ n h, run W.Q (n + 1) (.fn (some n!"UserState") n!"new") [] h = .ok w h)
    {k : Nat} (hk : W.Q.const? n!"RULES_SIZE" = some k) (hk' : k ≤ 4294967296) (e : List (Expr R × Nat)) (hb : ∀ c ∈ e, ByHand c.1) :
    Sim d (fun v _ x => v = encSession W.vn x) (runSession W.Q n W.vn fn W.src.bytes e) (evalAll P W.src m e (St.new P.grammar P.userInit)) := by
  obtain ⟨n, rfl⟩ : ∃ j, n = j + 3 := ⟨n - 3, by omega⟩
  have hxy : W.src.bytes.length % 4294967296 * k < 18446744073709551616 := by
    have : W.src.bytes.length % 4294967296 < 4294967296 := Nat.mod_lt _ (by omega)
    have := Nat.mul_le_mul (Nat.le_sub_one_of_lt this) hk'
    omega
  have e1 := source_new_run (W := W) (n := n + 2) (h := []) W.src.bytes
  have e2 := context_new_run (W := W) (n := n) (h := []) (W.src.bytes.length % 4294967296) k hv hg hxy
  rw [List.nil_append] at e2
  have e3 := hnew (n + 2) [encPub W.vn (Publisher.new P.grammar), ctxVal W.vn [] [] none (Publisher.new P.grammar)]
  have hgood : W.Good (St.new P.grammar P.userInit) [encPub W.vn (Publisher.new P.grammar), ctxVal W.vn [] [] none (Publisher.new P.grammar), w] := by
    refine ⟨⟨[], [], by rw [ha]; rfl, fun _ _ => rfl, fun _ _ => rfl⟩, ⟨w, by rw [hu]; rfl, hU⟩, by simp [St.new, Publisher.new]⟩
  have hs := callAll_sim G (n := n + 2) he e hb _ _ hgood
  rw [ha, hu] at hs
  unfold runSession
  rw [hk]
  simp only [e1, Res.bind_ok, e2, List.length_cons, List.length_nil, List.cons_append, List.nil_append, Nat.zero_add]
  rw [e3]
  simp only [Res.bind_ok, List.length_cons, List.length_nil, List.cons_append, List.nil_append, Nat.zero_add, Nat.reduceAdd]
  generalize callAll W.Q (n + 3) W.vn fn 2 1 (encSource W.src) e _ = r at hs ⊢
  generalize evalAll P W.src m e (St.new P.grammar P.userInit) = o at hs ⊢
  cases hs with
  | oofL e => exact .oofL e
  | oofR e => exact .oofR e
  | panic => exact .panic
  | @ok v h₂ x hK =>
    obtain ⟨rs, st⟩ := x
    obtain ⟨rfl, hg₂⟩ := hK
    obtain ⟨l, l', hctx, -, -⟩ := hg₂.ctx
    rw [ha] at hctx
    simp only [Res.bind_ok, hctx, get_publisher_run]
    exact .ok rfl
end

section
variable {R U : Type} [DecidableEq R] {br : Bool} {us : User U} {vs : List Bytes} {funs : List Text.Fun} {name var : R → Bytes} {P : Parser R U}

theorem computesSessions (hu : UserSim us P) (h : NamesOK us.items vs funs) (r : Rules us.hooks vs funs name var P) :
    ComputesSessions (progOf us br vs funs) P (fun r => nameOf (var r)) (fun r => nameOf (name r)) := by
  have key : ∀ (d : Dir) (input : Bytes) (e : List (Expr R × Nat)) (n m : Nat), (∀ c ∈ e, ByHand c.1) → 3 ≤ n → Enough d n m →
      Sim d (fun v _ x => v = encSession (fun r => nameOf (var r)) x) (runSession (progOf us br vs funs) n (fun r => nameOf (var r)) (fun r => nameOf (name r)) input e)
        (evalAll P ⟨input⟩ m e (St.new P.grammar P.userInit)) := by
    intro d input e n m hb hn he
    have C := world_crate (br := br) hu h r input
    have hs : utf8Of "Grammar" = var P.grammar := r.low P.grammar _ r.mem (by rw [r.start]; decide +kernel)
    have hv : (worldOf br hu.ok h r input).vn P.grammar = n!"Grammar" := by
      show nameOf (var P.grammar) = _
      rw [← hs]; decide +kernel
    have hg := C.named.variants _ r.mem
    rw [hs, show nameOf (var P.grammar) = n!"Grammar" from hv] at hg
    have hk : (worldOf br hu.ok h r input).Q.const? n!"RULES_SIZE" = some vs.length := (prog_const hu.ok _).trans (if_pos rfl)
    exact session_sim (W := worldOf br hu.ok h r input) C.gen hn he rfl rfl hv hg hu.init (fun n h' => hu.new _ n h' (hasUser hu.ok h)) hk h.size e hb
  have up : ∀ input (e : List (Expr R × Nat)) n v h', runSession (progOf us br vs funs) n (fun r => nameOf (var r)) (fun r => nameOf (name r)) input e = .ok v h' →
      runSession (progOf us br vs funs) (n + 3) (fun r => nameOf (var r)) (fun r => nameOf (name r)) input e = .ok v h' := by
    intro input e n v h' hx
    rcases runSession_le (Q := progOf us br vs funs) (vn := fun r => nameOf (var r)) (fn := fun r => nameOf (name r)) (text := input) (calls := e)
      (show n ≤ n + 3 by omega) with h | h
    · rw [hx] at h; cases h
    · rw [← h, hx]
  refine ⟨fun input e n v hp hb hx => ?_, fun input e m x hb hx => ⟨8 * m + 3, fun n hn => ?_⟩, fun input e hb => ⟨?_, ?_⟩, fun input e n hb => ?_⟩
  · have := key .sound input e (n + 3) (n + 3) hb (by omega) (Nat.le_refl _)
    rw [up _ _ _ _ _ hx] at this
    generalize hq : evalAll P ⟨input⟩ (n + 3) e _ = q at this
    cases this with
    | oofR e => cases e
    | ok k => exact ⟨_, _, hq, k⟩
  · have := key .complete input e n m hb (by omega) (show 8 * m ≤ n by omega)
    rw [hx] at this
    generalize runSession (progOf us br vs funs) n _ _ input e = q at this ⊢
    cases this with
    | oofL e => cases e
    | ok k => exact ⟨_, by rw [k]⟩
  · rintro ⟨N, hN⟩
    have := key .sound input e (N + 3) (N + 3) hb (by omega) (Nat.le_refl _)
    rw [hN (N + 3) (by omega)] at this
    generalize hq : evalAll P ⟨input⟩ (N + 3) e _ = q at this
    cases this with
    | oofR e => cases e
    | panic => exact ⟨_, _, hq⟩
  · rintro ⟨m, p, hx⟩
    refine ⟨8 * m + 3, fun n hn => ?_⟩
    have := key .complete input e n m hb (by omega) (show 8 * m ≤ n by omega)
    rw [hx] at this
    generalize hq : runSession (progOf us br vs funs) n _ _ input e = q at this
    cases this with
    | oofL e => cases e
    | panic => rfl
  · have := key .sound input e (n + 3) (n + 3) hb (by omega) (Nat.le_refl _)
    rcases runSession_le (Q := progOf us br vs funs) (vn := fun r => nameOf (var r)) (fn := fun r => nameOf (name r)) (text := input) (calls := e)
      (show n ≤ n + 3 by omega) with h | h
    · exact .inl h
    · rw [h]
      generalize runSession (progOf us br vs funs) (n + 3) _ _ input e = q at this ⊢
      generalize evalAll P ⟨input⟩ (n + 3) e _ = q' at this
      cases this with
      | oofL e => exact .inl rfl
      | oofR e => cases e
      | panic => exact .inr (.inl rfl)
      | ok k => exact .inr (.inr ⟨_, _, rfl⟩)
end

theorem crateCheck_session {R U : Type} [DecidableEq R] {core user : List Bytes} {us : User U} (hcore : readCrate core = some Ast.core)
    (huser : readCrate user = some us.items) {rulesRs parserRs : Bytes} {rules : List R}
    {name : R → Bytes} {enum : List Bytes} {P : Parser R U} (hu : UserSim us P) (hall : ∀ r, r ∈ rules)
    (h : crateCheck us.items us.hooks rulesRs parserRs rules P.body name enum P.grammar = true) :
    ∃ Q, readCrate (core ++ user ++ [rulesRs, parserRs]) = some Q ∧ ComputesSessions Q P (fun r => nameOf (variantOf enum (name r))) fun r => nameOf (name r) := by
  unfold crateCheck at h
  split at h
  · cases h
  · rename_i items _
    simp only [Bool.and_eq_true, decide_eq_true_eq, List.all_eq_true, List.any_eq_true] at h
    obtain ⟨⟨⟨⟨⟨⟨⟨h1, h2⟩, h3⟩, h4⟩, h5⟩, h7⟩, -⟩, h6⟩ := h
    refine ⟨progOf us true enum (Text.funsOf items), ?_, ?_⟩
    · rw [List.append_assoc]
      refine readCrate_append hcore (readCrate_append huser ?_)
      simp [readCrate, h1, h2]
    · exact computesSessions hu (namesOK_ok h3) (variantOf_rules (namesOK_ok h3) (fun r s e => nodup_inj h4 (hall r) (hall s) e)
        (fun r => let ⟨f, hf, e, e'⟩ := h6 r (hall r); ⟨f, hf, e, e'⟩) h5 h7)

end PP.Mini
