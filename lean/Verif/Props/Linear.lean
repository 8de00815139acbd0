import Verif.Lemmas.Linear
import Verif.Lemmas.Gen.ClearConv
import Verif.Props.Termination
import Verif.Props.Blowup

/-! # C08 and C61: parsers whose trees are linear in the text

`linOK` (Spec/Linear.lean) checks, rule by rule, that the nodes recorded by alternatives that fail but are recovered from are
few; the DSL grammar passes the check, so — unlike the grammars of C52 — the tree the DSL parser returns is never larger than
the text by more than a constant factor, and copying it cannot exhaust the arena. -/
set_option linter.unusedSectionVars false
namespace PP
variable {R U : Type} [DecidableEq R]

/-- C61: a grammar without left recursion that passes the check with slope `C` returns trees of at most
`2 + C * (end position) + (1 - d)` nodes, where `d` is what the certificate grants the start rule; a failed parse returns
two nodes. -/
theorem C61_certified_tree_is_linear (body : R → Expr R) (g : R) (src : Source) (hb : ∀ r, (body r).Plain) (rules : List R)
    (hrules : ∀ r, r ∈ rules) (C s : Nat) (cert : R → Lin) (hcert : linOK C s cert body rules = true) {n : Nat} {b : Bool}
    {q : Nat} {t : Publisher R} (h : parse (.plain body g) src n = .ok (b, q, t)) :
    (b = true → (t.nodes.length : Int) ≤ 2 + C * q + (1 - (cert g).d)) ∧ (b = false → t.nodes.length = 2) := by
  have hc : ∀ r, ∃ x, (body r).lin C s cert = some x ∧ (cert r).le x = true := by
    intro r
    have := List.all_eq_true.mp hcert r (hrules r)
    revert this
    cases (body r).lin C s cert with
    | none => simp
    | some x => exact fun h => ⟨x, rfl, h⟩
  obtain ⟨ts, hr, hlen, _⟩ := parse_len (lr := False) (.plain body g) src (plain_hooksOK _ _ _) (fun r => Or.inr (hb r).lrFree) h
  have hp : PegT body src (.varName g) 0 b q ts := hr.pegT hb trivial
  have hl := lin_sound hc hp _ rfl
  constructor
  · rintro rfl
    have := hl.d rfl
    simp only [surv] at this
    simp only [Int.natCast_zero, Int.sub_zero] at this
    omega
  · rintro rfl
    have := hl.f rfl 0 rfl
    simp only [surv] at this
    omega

/-- C61: if such a grammar is also well formed, its parser is total on sources that leave room in the arena: every parse
returns, with the PEG result. -/
theorem C61_certified_parse_is_total (body : R → Expr R) (g : R) (src : Source) (hb : ∀ r, (body r).Plain) (rules : List R)
    (hrules : ∀ r, r ∈ rules) (hwf : WellFormed body) (C s : Nat) (cert : R → Lin)
    (hcert : linOK C s cert body rules = true) (hroom : rules.length * (src.len + 1) < 2 ^ 32)
    (hroom' : 2 + C * (src.len : Int) + (1 - (cert g).d) ≤ 2 ^ 32) :
    ∃ b q t, Peg body src (.varName g) 0 b q ∧ ∃ N, ∀ n, N ≤ n → parse (.plain body g) src n = .ok (b, q, t) := by
  have hc : ∀ r, ∃ x, (body r).lin C s cert = some x ∧ (cert r).le x = true := by
    intro r
    have := List.all_eq_true.mp hcert r (hrules r)
    revert this
    cases (body r).lin C s cert with
    | none => simp
    | some x => exact fun h => ⟨x, rfl, h⟩
  obtain ⟨b, q, h⟩ := C07_peg_is_total body src hb hwf (.varName g) trivial trivial 0
  obtain ⟨N, hN⟩ := C05_peg_result_is_computed_small body g src hb rules hrules hroom (e := .varName g) trivial
    (Nat.zero_le _) h
  obtain ⟨st, hst⟩ := hN N (Nat.le_refl _)
  obtain ⟨ks, ts, hr, h0, hu⟩ := eval_new_root (lr := False) (.plain body g) src (plain_hooksOK _ _ _)
      (fun r => Or.inr (hb r).lrFree) (e := .varName g) (Or.inr trivial) hst
  have hp : PegT body src (.varName g) 0 b q ts := hr.pegT hb trivial
  have hl := lin_sound hc hp _ rfl
  have hq := hp.peg.bounds
  have hfit : 2 + Tree.size.sizeL (Tree.prune.pruneL ts) ≤ 4294967296 := by
    cases b with
    | true =>
      have h1 := hl.d rfl
      simp only [surv, Int.natCast_zero, Int.sub_zero] at h1
      have h2 : (C : Int) * q ≤ C * src.len := Int.mul_le_mul_of_nonneg_left (by omega) (by omega)
      omega
    | false =>
      have h1 := hl.f rfl 0 rfl
      simp only [surv] at h1
      omega
  obtain ⟨t, _, _, _, N', hN'⟩ := clearFalse_conv g st.pub h0 rfl hu hfit
  refine ⟨b, q, t, h, max N N', fun n hn => ?_⟩
  have e1 : eval (.plain body g) src n (.varName g) 0 0 (St.new g ()) = .ok (b, q, st) := by
    rw [Out.le_eq (eval_le (.plain body g) src N n (by omega) _ _ _ _) (by rw [hst]; simp)]
    exact hst
  have e2 := hN' n (by omega)
  simp only at e2
  unfold parse
  simp only [Parser.plain] at e1 ⊢
  rw [e1]
  simp only [Out.bind_ok]
  rw [e2]
  rfl

/-! ## The DSL parser -/

/-- The certificate of the DSL grammar, with slope 3 and the byte `"` (an unfinished string leaves any number of nodes, but
then nothing else can be read there). -/
def dslLin : Dsl → Lin
  | .r_alphabet_upper | .r_alphabet_lower | .r_num | .r_numnozero | .r_hexval | .r_spaces | .r_quotationmark
  | .r_left_angle_bracket | .r_right_angle_bracket | .r_left_bracket | .r_right_bracket | .r_assignment
  | .r_end_rule | .r_ampersand | .r_exclamation_mark | .r_plus | .r_star | .r_question_mark | .r_comma
  | .r_newline | .r_backslash | .r_var_name => ⟨3, some 0, some 0, some 0, false, true, false⟩
  | .r_specials => ⟨3, some 0, some 1, some 1, false, false, false⟩
  | .r_ascii => ⟨3, some 0, some 0, some 0, false, false, false⟩
  | .r_apostrophe => ⟨3, some 0, some 0, some 0, true, false, false⟩
  | .r_var_name_decl | .r_var_name_ref => ⟨9, some 0, some 0, some 0, false, true, false⟩
  | .r_hex => ⟨8, none, some 0, some 0, false, true, false⟩
  | .r_integer => ⟨2, none, some 1, some 1, false, true, false⟩
  | .r_orderedchoicematchrange => ⟨14, none, none, none, false, false, false⟩
  | .r_subexpression => ⟨3, none, none, none, false, true, false⟩
  | .r_hooked_call => ⟨6, none, none, none, false, true, false⟩
  | .r_epsilon => ⟨6, some 0, some 0, some 0, false, true, false⟩
  | .r_stringterminal => ⟨1, none, none, some 0, false, false, false⟩
  | .r_terminal => ⟨4, some 2, some 1, some 1, false, true, false⟩
  | .r_nucleus => ⟨0, none, none, none, false, false, false⟩
  | .r_atom | .r_sequence | .r_ordered_choice => ⟨-1, none, none, none, false, false, false⟩
  | .r_and_predicate | .r_not_predicate => ⟨2, none, some 0, some 0, false, true, false⟩
  | .r_one_or_more | .r_zero_or_more | .r_optional => ⟨2, none, none, none, false, false, false⟩
  | .r_whitespace => ⟨0, some 0, some 0, some 0, false, false, true⟩
  | .r_rhs => ⟨-2, none, some 0, some 0, false, false, false⟩
  | .r_lhs => ⟨6, some 3, some 1, some 1, false, true, false⟩
  | .r_rule => ⟨8, none, none, none, false, true, false⟩
  | .r_grammar => ⟨7, none, none, none, false, true, false⟩
  | .r_comment => ⟨6, none, none, none, false, false, false⟩
  | .r_semantic_instructions => ⟨17, some 1, some 0, some 0, false, false, false⟩
  | .r_inline => ⟨18, some 0, some 0, some 0, false, false, false⟩

theorem dsl_linOK : linOK 3 34 dslLin Dsl.body Dsl.all = true := by decide +kernel

/-- C61: the tree returned by the DSL parser has at most `2 + 3 * q` nodes, `q` being where the parse ended. -/
theorem C61_dsl_tree_is_linear (src : Source) {n : Nat} {b : Bool} {q : Nat} {t : Publisher Dsl}
    (h : parse dslParser src n = .ok (b, q, t)) : t.nodes.length ≤ 2 + 3 * q := by
  obtain ⟨h1, h2⟩ := C61_certified_tree_is_linear Dsl.body .r_grammar src dsl_plain Dsl.all Dsl.mem_all 3 34 dslLin dsl_linOK h
  cases b with
  | true =>
    have := h1 rfl
    rw [show (dslLin .r_grammar).d = 7 from rfl] at this
    omega
  | false => have := h2 rfl; omega

/-- C08: on every source below 82 million bytes the DSL parser returns, with the result of the PEG semantics. -/
theorem C08_dsl_parse_is_total (src : Source) (hsmall : src.len < 82000000) :
    ∃ b q t, Peg Dsl.body src (.varName .r_grammar) 0 b q ∧ ∃ N, ∀ n, N ≤ n → parse dslParser src n = .ok (b, q, t) :=
  C61_certified_parse_is_total Dsl.body .r_grammar src dsl_plain Dsl.all Dsl.mem_all wf_dsl 3 34 dslLin dsl_linOK
    (by rw [show Dsl.all.length = 52 from rfl]; omega)
    (by rw [show (dslLin .r_grammar).d = 7 from rfl]; omega)

/-- The hypotheses are met: a three-byte grammar text cannot be read, a written rule can. -/
example : ∃ b q t, Peg Dsl.body ⟨bytesOf "<a>"⟩ (.varName .r_grammar) 0 b q ∧ ∃ N, ∀ n, N ≤ n →
    parse dslParser ⟨bytesOf "<a>"⟩ n = .ok (b, q, t) := C08_dsl_parse_is_total _ (by decide)

end PP
