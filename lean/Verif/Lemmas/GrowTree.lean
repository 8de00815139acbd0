import Verif.Lemmas.DirectLR
import Verif.Lemmas.EvalCtr
import Verif.Lemmas.TreeFacts
import Verif.Lemmas.Reach
import Verif.Spec.GrowTree

/-! # Trees of directly left-recursive grammars -/
set_option linter.unusedSectionVars false
namespace PP
variable {R U : Type} [DecidableEq R]

/-- The way a rule is referenced. -/
def refOf (lr : R → Option (LRDecl R)) (r : R) : Expr R :=
  match lr r with
  | some d => .varNameLR d.involved r
  | none => .varName r

section
variable (rep : Prop) (P : Parser R U) (src : Source) (lr : R → Option (LRDecl R))

/-- Memoised trees are trees of the specification. -/
structure TOK (stk : List (R × Nat)) (st : St R U) : Prop where
  memo : ∀ r p b q k, (r, p) ∉ stk → st.cache.memo r p = some (b, q, k) → ∃ t, UnfL st.pub.nodes [k] [t] ∧
    ∀ pre, LRT rep P.body lr src pre (refOf lr r) p b q [t]
  headed : ∀ r p, lr r ≠ none → st.cache.memo r p ≠ none → st.cache.heads r p ≠ none

/-- A pending parent with its children so far. -/
structure Pre (D : Nat → Prop) (st : St R U) (parent : Nat) (cs : List Nat) (pre : List (Tree R)) : Prop where
  inv : Inv True P.body src D st
  par : ¬ D parent
  kids : ∃ nd, st.pub.nodes[parent]? = some nd ∧ nd.children = cs
  unf : UnfL st.pub.nodes cs pre

def TPost (stk : List (R × Nat)) (D : Nat → Prop) (st : St R U) (parent : Nat) (st' : St R U)
    (S : List Nat → List (Tree R) → Prop) : Prop :=
  ∃ D' ks ts, Inv True P.body src D' st' ∧ Step True D st D' st' parent ks ∧ (∀ k ∈ ks, D' k) ∧
    UnfL st'.pub.nodes ks ts ∧ TOK rep P src lr stk st' ∧ S ks ts

/-- Trees built by expressions without head references, at fuel `n`. -/
def TClaim (n : Nat) : Prop :=
  ∀ (e : Expr R) stk D parent p st b q st' cs pre, e.RefsOK lr → StOK P src lr stk st → Safe P lr stk e p →
    ActOK P lr st.cache.active e → (rep ∨ st.cache.active ≠ none) → Pre P src D st parent cs pre → TOK rep P src lr stk st →
    eval P src n e parent p st = .ok (b, q, st') →
    TPost rep P src lr stk D st parent st' (fun _ ts => LRT rep P.body lr src pre e p b q ts)

variable {rep P src lr}

theorem Pre.lt {D : Nat → Prop} {st : St R U} {parent cs pre} (h : Pre P src D st parent cs pre) :
    parent < st.pub.nodes.length := by
  obtain ⟨nd, h, _⟩ := h.kids
  exact lt_of_getElem?_some h

theorem Pre.next {D D' : Nat → Prop} {st st' : St R U} {parent cs pre ks ts} (h : Pre P src D st parent cs pre)
    (hi : Inv True P.body src D' st') (hs : Step True D st D' st' parent ks) (hu : UnfL st'.pub.nodes ks ts) :
    Pre P src D' st' parent (cs ++ ks) (pre ++ ts) := by
  obtain ⟨nd, h1, h2⟩ := h.kids
  refine ⟨hi, fun hd => ?_, ⟨_, hs.par nd h1, by rw [h2]⟩, (hs.unf h.inv ?_ h.unf).append hu⟩
  · rcases hs.fresh _ hd with hd | hd
    · exact h.par hd
    · have := h.lt; omega
  · subst h2; exact h.inv.kids parent nd h1

/-- A pending parent always has a forest. -/
theorem UnfL.exists_of {D : Nat → Prop} {st : St R U} (hi : Inv True P.body src D st) : ∀ cs : List Nat, (∀ c ∈ cs, D c) →
    ∃ pre, UnfL st.pub.nodes cs pre := by
  intro cs
  induction cs with
  | nil => intro _; exact ⟨[], .nil⟩
  | cons c cs ih =>
    intro h
    obtain ⟨ts, ht⟩ := ih fun x hx => h x (List.mem_cons_of_mem _ hx)
    obtain ⟨t, hc⟩ := hi.done c (h c (by simp))
    exact ⟨_, UnfL.append hc ht⟩

theorem TPost.ret {stk : List (R × Nat)} {D : Nat → Prop} {st : St R U} {parent : Nat} {S : List Nat → List (Tree R) → Prop}
    (hi : Inv True P.body src D st) (ht : TOK rep P src lr stk st) (hS : S [] []) :
    TPost rep P src lr stk D st parent st S := ⟨D, [], [], hi, .refl, by simp, .nil, ht, hS⟩

theorem TPost.mono {stk : List (R × Nat)} {D : Nat → Prop} {st st' : St R U} {parent : Nat}
    {S S' : List Nat → List (Tree R) → Prop} (h : TPost rep P src lr stk D st parent st' S)
    (hS : ∀ ks ts, S ks ts → S' ks ts) : TPost rep P src lr stk D st parent st' S' := by
  obtain ⟨D', ks, ts, h1, h2, h3, h4, h5, h6⟩ := h
  exact ⟨D', ks, ts, h1, h2, h3, h4, h5, hS _ _ h6⟩

theorem TPost.bind {stk : List (R × Nat)} {D : Nat → Prop} {st st1 st2 : St R U} {parent : Nat} {cs pre}
    {S1 S2 : List Nat → List (Tree R) → Prop} (h : TPost rep P src lr stk D st parent st1 S1)
    (hp : Pre P src D st parent cs pre)
    (hf : ∀ D1 ks ts, S1 ks ts → Pre P src D1 st1 parent (cs ++ ks) (pre ++ ts) → TOK rep P src lr stk st1 →
      Step True D st D1 st1 parent ks →
      TPost rep P src lr stk D1 st1 parent st2 (fun ks2 us => S2 (ks ++ ks2) (ts ++ us))) :
    TPost rep P src lr stk D st parent st2 S2 := by
  obtain ⟨D', ks, ts, h1, h2, h3, h4, h5, h6⟩ := h
  obtain ⟨D2, ks2, us, g1, g2, g3, g4, g5, g6⟩ := hf D' ks ts h6 (hp.next h1 h2 h4) h5 h2
  refine ⟨D2, ks ++ ks2, ts ++ us, g1, h2.trans g2, ?_, (g2.unf h1 h3 h4).append g4, g5, g6⟩
  intro k hk
  rcases List.mem_append.mp hk with hk | hk
  · exact g2.mono k (h3 k hk)
  · exact g3 k hk

theorem TOK.ofU {stk stk' : List (R × Nat)} {D : Nat → Prop} {st st' : St R U}
    (h : TOK rep P src lr stk st) (hi : Inv True P.body src D st)
    (hs : ∀ k t, D k → UnfL st.pub.nodes [k] [t] → UnfL st'.pub.nodes [k] [t])
    (hm : ∀ r p b q k, (r, p) ∉ stk' → st'.cache.memo r p = some (b, q, k) →
      ((r, p) ∉ stk ∧ st.cache.memo r p = some (b, q, k)) ∨
      ∃ t, UnfL st'.pub.nodes [k] [t] ∧ ∀ pre, LRT rep P.body lr src pre (refOf lr r) p b q [t])
    (hh : ∀ r p, lr r ≠ none → st'.cache.memo r p ≠ none → st'.cache.heads r p ≠ none) :
    TOK rep P src lr stk' st' := by
  refine ⟨fun r p b q k hn e => ?_, hh⟩
  rcases hm r p b q k hn e with ⟨h1, h2⟩ | h'
  · obtain ⟨t, hu, ht⟩ := h.memo r p b q k h1 h2
    exact ⟨t, hs k t (hi.memo r p b q k h2).1 hu, ht⟩
  · exact h'

theorem TOK.of {stk stk' : List (R × Nat)} {D D' : Nat → Prop} {st st' : St R U} {parent ks}
    (h : TOK rep P src lr stk st) (hi : Inv True P.body src D st) (hs : Step True D st D' st' parent ks)
    (hm : ∀ r p b q k, (r, p) ∉ stk' → st'.cache.memo r p = some (b, q, k) →
      ((r, p) ∉ stk ∧ st.cache.memo r p = some (b, q, k)) ∨
      ∃ t, UnfL st'.pub.nodes [k] [t] ∧ ∀ pre, LRT rep P.body lr src pre (refOf lr r) p b q [t])
    (hh : ∀ r p, lr r ≠ none → st'.cache.memo r p ≠ none → st'.cache.heads r p ≠ none) :
    TOK rep P src lr stk' st' :=
  h.ofU hi (fun _ _ hk hu => hs.unf hi (by simpa using hk) hu) hm hh

theorem TOK.of_cache {stk : List (R × Nat)} {D D' : Nat → Prop} {st st' : St R U} {parent ks}
    (h : TOK rep P src lr stk st) (hi : Inv True P.body src D st) (hs : Step True D st D' st' parent ks)
    (hc : st'.cache = st.cache) : TOK rep P src lr stk st' :=
  h.of hi hs (fun r p b q k hn e => Or.inl ⟨hn, by rw [← hc]; exact e⟩) (by rw [hc]; exact h.headed)

/-- The forest of a call also satisfies the general contract. -/
theorem TPost.withRun (hh : P.HooksOK src) {stk : List (R × Nat)} {D : Nat → Prop} {st st' : St R U} {parent : Nat}
    {cs pre} {S : List Nat → List (Tree R) → Prop} (h : TPost rep P src lr stk D st parent st' S)
    (hp : Pre P src D st parent cs pre) {n : Nat} {e : Expr R} {p : Nat} {b : Bool} {q : Nat}
    (he : eval P src n e parent p st = .ok (b, q, st')) :
    TPost rep P src lr stk D st parent st' (fun ks ts => S ks ts ∧ Run True P.body src e p b q ts) := by
  obtain ⟨D', ks, ts, h1, h2, h3, h4, h5, h6⟩ := h
  refine ⟨D', ks, ts, h1, h2, h3, h4, h5, h6, ?_⟩
  have := eval_ctr (lr := True) P src hh (fun _ => Or.inl trivial) n e (Or.inl trivial) D st parent p hp.inv hp.par hp.lt
  rw [he] at this
  obtain ⟨D2, ks2, us, _, g2, _, _, g4, g5⟩ := this
  obtain ⟨nd, hnd, _⟩ := hp.kids
  have e1 := h2.par nd hnd
  rw [g2.par nd hnd] at e1
  simp only [Option.some.injEq, Node.mk.injEq, List.append_cancel_left_eq, true_and] at e1
  subst e1
  obtain rfl := h4.unique g4
  exact g5

section HT
variable {N : Nat} (hT : ∀ n, n ≤ N → TClaim rep P src lr n) (hh : P.HooksOK src) (hD : DirectLR P.body lr)
variable {A : R} {d : LRDecl R} (hd : lr A = some d) {p : Nat} {stk : List (R × Nat)} (hpos : ∀ x ∈ stk, x.2 ≤ p)

include hT hD hd hpos in
/-- An expression of the tail, from a position after `p`, while growing `(A, p)`. -/
theorem tailT {m : Option (Bool × Nat × Nat)} {c : Expr R} (hc : c.RefsOK lr)
    (hcc : ∀ B, CallsLR P.body c B → CallsLR P.body d.tail B) {n : Nat} (hn : n ≤ N) {D : Nat → Prop} {parent s : Nat}
    {st st' : St R U} {b : Bool} {q : Nat} {cs pre} (hs : p < s) (hl : L0 P src lr A p stk m st)
    (hp : Pre P src D st parent cs pre) (ht : TOK rep P src lr ((A, p) :: stk) st)
    (he : eval P src n c parent s st = .ok (b, q, st')) :
    Peg (iterBody P.body lr) src c.deLR s b q ∧ L0 P src lr A p stk m st' ∧
      TPost rep P src lr ((A, p) :: stk) D st parent st' (fun _ ts => LRT rep P.body lr src pre c s b q ts) := by
  have hsafe : Safe P lr ((A, p) :: stk) c s := Safe.later (p := p) (by simpa using hpos) hs
  have hact : ActOK P lr st.cache.active c := fun A' pa ha d' hd' B hB => by
    rw [hl.active] at ha
    obtain ⟨rfl, rfl⟩ : A = A' ∧ p = pa := by simpa using ha
    rw [hd] at hd'; cases hd'
    exact hD.noReentry A d hd B (Or.inr (hcc B hB))
  obtain ⟨h1, h2, h3⟩ := claim_all hD n c _ parent s st b q st' hc hl.ok hsafe hact he
  exact ⟨h1, hl.next h2 h3, hT n hn c _ D parent s st b q st' cs pre hc hl.ok hsafe hact (Or.inr (by rw [hl.active]; simp))
    hp ht he⟩

/-- The head reference at level 0. -/
theorem head0T {inv : List R} {m : Option (Bool × Nat × Nat)} {n parent : Nat} {D : Nat → Prop} {st st1 : St R U} {b1 : Bool}
    {q1 : Nat} {cs pre} (hl : L0 P src lr A p stk m st) (hp : Pre P src D st parent cs pre)
    (h1 : eval P src n (.varNameLR inv A) parent p st = .ok (b1, q1, st1)) :
    st1.cache = st.cache ∧ ∃ kk, Inv True P.body src D st1 ∧ Step True D st D st1 parent kk ∧
      ((m = none ∧ b1 = false ∧ kk = []) ∨
        ∃ k, m = some (b1, q1, k) ∧ D k ∧ kk = if k ∈ cs then [] else [k]) := by
  refine ⟨(head0 hl h1).1, ?_⟩
  cases n with
  | zero => cases h1
  | succ n =>
    obtain ⟨hh, hh1, hh2, hh3⟩ := hl.head
    simp only [eval, varNameLRKernel, shouldGrow, hl.active, Cache.checkHead, hh1, Out.bind_ok, Bool.false_eq_true,
      if_false, lrInner, Cache.ruleInEvalSet] at h1
    rw [if_neg (by simpa using hh2)] at h1
    simp only [Cache.check, hl.memo] at h1
    cases m with
    | none =>
      simp at h1
      obtain ⟨rfl, rfl, rfl⟩ := h1
      exact ⟨[], hp.inv, .refl, Or.inl ⟨rfl, rfl, rfl⟩⟩
    | some v =>
      obtain ⟨mb, mq, mk⟩ := v
      obtain ⟨nd, hnd, hcs⟩ := hp.kids
      have hk := (hp.inv.memo A p mb mq mk hl.memo).1
      simp only [connectIf_eq hnd, Out.bind_ok] at h1
      simp at h1
      obtain ⟨rfl, rfl, rfl⟩ := h1
      rw [hcs]
      by_cases hmem : mk ∈ cs
      · simp only [hmem, if_true]
        exact ⟨[], hp.inv, .refl, Or.inr ⟨mk, rfl, hk, by simp [hmem]⟩⟩
      · simp only [hmem, if_false]
        obtain ⟨hi4, hs4⟩ := hp.inv.connected hp.par hnd hk
        exact ⟨[mk], hi4, hs4, Or.inr ⟨mk, rfl, hk, by simp [hmem]⟩⟩

include hT hD hd hpos in
/-- The head expression at level 0 when there is a seed. -/
theorem ht0T {e t : Expr R} (hht : HeadTail d.involved A e t) (ht : t.RefsOK lr)
    (hcall : ∀ B, CallsLR P.body t B → CallsLR P.body d.tail B) {s k : Nat} (hs : p < s) {tm : Tree R} :
    ∀ n, n ≤ N + 1 → ∀ D parent st b q st' cs pre, L0 P src lr A p stk (some (true, s, k)) st →
      Pre P src D st parent cs pre → TOK rep P src lr ((A, p) :: stk) st → UnfL st.pub.nodes [k] [tm] →
      eval P src n e parent p st = .ok (b, q, st') →
      TPost rep P src lr ((A, p) :: stk) D st parent st' (fun ks ts => k ∈ cs ++ ks ∧
        ∃ us qt, ts = (if k ∈ cs then [] else [tm]) ++ us ∧
          LRT rep P.body lr src (pre ++ if k ∈ cs then [] else [tm]) t s b qt us ∧
          (b = true → qt = q) ∧ (b = false → qt = s)) := by
  have hm : SeedOK p (some (true, s, k)) := fun s' k' h => by cases h; exact hs
  have hC := fun n (_ : n ≤ N + 1) => claim_all (src := src) hD n
  induction hht with
  | @base t =>
    intro n hn D parent st b q st' cs pre hl hp htok hu he
    cases n with
    | zero => cases he
    | succ n =>
      simp only [eval, sequenceKernel] at he
      rw [Out.bind_eq_ok] at he
      obtain ⟨⟨b1, q1, st1⟩, h1, h2⟩ := he
      obtain ⟨hc1, kk, hi1, hs1, hcase⟩ := head0T hl hp h1
      rcases hcase with ⟨h, _⟩ | ⟨k', hk', hDk, hkk⟩
      · cases h
      · obtain ⟨rfl, rfl, rfl⟩ : true = b1 ∧ s = q1 ∧ k = k' := by simpa using hk'
        have hl1 : L0 P src lr A p stk (some (true, s, k)) st1 := hl.next (hl.ok.of_cache hc1) (.of_cache hc1)
        have hukk : UnfL st1.pub.nodes kk (if k ∈ cs then [] else [tm]) := by
          rw [hkk]
          split
          · exact .nil
          · exact hs1.unf hp.inv (by simpa using hDk) hu
        have hpost : TPost rep P src lr ((A, p) :: stk) D st parent st1
            (fun ks ts => ks = kk ∧ ts = (if k ∈ cs then [] else [tm])) :=
          ⟨D, kk, _, hi1, hs1, by rw [hkk]; split <;> simp [hDk], hukk, htok.of_cache hp.inv hs1 hc1, rfl, rfl⟩
        refine hpost.bind hp ?_
        rintro D1 _ _ ⟨rfl, rfl⟩ hp1 ht1 _
        simp only [if_true] at h2
        rw [Out.bind_eq_ok] at h2
        obtain ⟨⟨b2, q2, st2⟩, h3, h4⟩ := h2
        obtain ⟨g1, g2, g3⟩ := tailT hT hD hd hpos ht hcall (by omega) hs hl1 hp1 ht1 h3
        dsimp only at h4
        have hst : b2 = b ∧ st2 = st' ∧ (b = true → q2 = q) := by
          cases b2 <;> simp at h4 <;> obtain ⟨rfl, rfl, rfl⟩ := h4 <;> simp
        obtain ⟨rfl, rfl, hq⟩ := hst
        refine g3.mono fun ks ts hS => ⟨?_, ts, q2, rfl, hS, hq, fun hb => ?_⟩
        · rw [hkk]
          by_cases hkc : k ∈ cs <;> simp [hkc]
        · subst hb; exact g1.bounds.1 rfl
  | @seq e t c hht ih =>
    intro n hn D parent st b q st' cs pre hl hp htok hu he
    cases n with
    | zero => cases he
    | succ n =>
      simp only [eval, sequenceKernel] at he
      rw [Out.bind_eq_ok] at he
      obtain ⟨⟨b1, q1, st1⟩, h1, h2⟩ := he
      obtain ⟨i1, i2, i3⟩ := ht0 hC hD hd hpos hht ht.1 (fun B hB => hcall B (.fst hB)) hm n (by omega) _ _ _ _ _ hl h1
      have j := ih ht.1 (fun B hB => hcall B (.fst hB)) n (by omega) D parent st b1 q1 st1 cs pre hl hp htok hu h1
      dsimp only at h2
      cases b1 with
      | false =>
        simp at h2
        obtain ⟨rfl, rfl, rfl⟩ := h2
        refine j.mono ?_
        rintro ks ts ⟨hk, us, qt, rfl, hlrt, _, _⟩
        exact ⟨hk, us, s, rfl, .seq_fail1 hlrt, by simp, by simp⟩
      | true =>
        simp only [if_true] at h2
        rw [Out.bind_eq_ok] at h2
        obtain ⟨⟨b2, q2, st2⟩, h3, h4⟩ := h2
        obtain ⟨s', k', hms, h⟩ := i3.of_true
        cases hms
        have hb := h.bounds.2
        refine j.bind hp ?_
        rintro D1 ks ts ⟨hk, us, qt, rfl, hlrt, hqt, _⟩ hp1 ht1 _
        obtain rfl := hqt rfl
        obtain ⟨g1, g2, g3⟩ := tailT hT hD hd hpos ht.2 (fun B hB => hcall B (.snd hB)) (by omega)
          (by omega : p < qt) i1 hp1 ht1 h3
        have hst : b2 = b ∧ st2 = st' ∧ (b = true → q2 = q) := by
          dsimp only at h4
          cases b2 <;> simp at h4 <;> obtain ⟨rfl, rfl, rfl⟩ := h4 <;> simp
        obtain ⟨rfl, rfl, hq⟩ := hst
        refine g3.mono fun ks2 vs hS => ?_
        rw [← List.append_assoc] at hS
        refine ⟨by rw [← List.append_assoc]; exact List.mem_append_left _ hk, us ++ vs, if b2 then q else s, by
          simp [List.append_assoc], ?_, fun h => by simp [h], fun h => by simp [h]⟩
        cases b2 with
        | true => obtain rfl := hq rfl; exact .seq_ok hlrt hS
        | false => exact .seq_fail2 hlrt hS
  | @sub e t _ ih =>
    intro n hn D parent st b q st' cs pre hl hp htok hu he
    cases n with
    | zero => cases he
    | succ n =>
      simp only [eval, subexpressionKernel] at he
      rw [Out.bind_eq_ok] at he
      obtain ⟨⟨b1, q1, st1⟩, h1, h2⟩ := he
      have j := ih ht hcall n (by omega) D parent st b1 q1 st1 cs pre hl hp htok hu h1
      dsimp only at h2
      cases b1 with
      | false =>
        simp at h2
        obtain ⟨rfl, rfl, rfl⟩ := h2
        refine j.mono ?_
        rintro ks ts ⟨hk, us, qt, rfl, hlrt, _, hf⟩
        exact ⟨hk, us, qt, rfl, hlrt, by simp, hf⟩
      | true =>
        simp at h2
        obtain ⟨rfl, rfl, rfl⟩ := h2
        exact j
  | @choice e t e' t' hht hht' ih ih' =>
    intro n hn D parent st b q st' cs pre hl hp htok hu he
    cases n with
    | zero => cases he
    | succ n =>
      simp only [eval, orderedChoiceKernel] at he
      rw [Out.bind_eq_ok] at he
      obtain ⟨⟨b1, q1, st1⟩, h1, h2⟩ := he
      obtain ⟨i1, i2, i3⟩ := ht0 hC hD hd hpos hht ht.1 (fun B hB => hcall B (.left hB)) hm n (by omega) _ _ _ _ _ hl h1
      have j := ih ht.1 (fun B hB => hcall B (.left hB)) n (by omega) D parent st b1 q1 st1 cs pre hl hp htok hu h1
      dsimp only at h2
      cases b1 with
      | true =>
        simp at h2
        obtain ⟨rfl, rfl, rfl⟩ := h2
        refine j.mono ?_
        rintro ks ts ⟨hk, us, qt, rfl, hlrt, h1, h2⟩
        exact ⟨hk, us, qt, rfl, .choice_left hlrt, h1, h2⟩
      | false =>
        simp only [Bool.false_eq_true, if_false] at h2
        rw [Out.bind_eq_ok] at h2
        obtain ⟨⟨b2, q2, st2⟩, h3, h4⟩ := h2
        have hDk := (hp.inv.memo A p true s k hl.memo).1
        refine j.bind hp ?_
        rintro D1 ks ts ⟨hk, us, qt, rfl, hlrt, _, hqt⟩ hp1 ht1 hs1
        obtain rfl := hqt rfl
        have j2 := ih' ht.2 (fun B hB => hcall B (.right hB)) n (by omega) D1 parent st1 b2 q2 st2 _ _ i1 hp1 ht1
          (hs1.unf hp.inv (by simpa using hDk) hu) h3
        have hst : b2 = b ∧ st2 = st' ∧ (b = true → q2 = q) := by
          dsimp only at h4
          cases b2 <;> simp at h4 <;> obtain ⟨rfl, rfl, rfl⟩ := h4 <;> simp
        obtain ⟨rfl, rfl, hq⟩ := hst
        refine j2.mono ?_
        rintro ks2 vs ⟨_, vs', qt', rfl, hlrt', hq1, hq2⟩
        simp only [hk, if_true, List.nil_append, List.append_nil] at hlrt' ⊢
        rw [← List.append_assoc] at hlrt'
        refine ⟨by rw [← List.append_assoc]; exact List.mem_append_left _ hk, us ++ vs', qt', by
          simp [List.append_assoc], ?_, fun h => (hq1 h).trans (hq h), hq2⟩
        cases b2 with
        | true => exact .choice_right hlrt hlrt'
        | false => obtain rfl := hq2 rfl; exact .choice_fail hlrt hlrt'

include hD hd hpos in
/-- The head expression at level 0 when there is no successful seed. -/
theorem ht0T_none {e t : Expr R} (hht : HeadTail d.involved A e t) (ht : t.RefsOK lr)
    (hcall : ∀ B, CallsLR P.body t B → CallsLR P.body d.tail B) {m : Option (Bool × Nat × Nat)}
    (hm : ∀ s k, m ≠ some (true, s, k)) :
    ∀ n D parent st b q st' cs pre, L0 P src lr A p stk m st →
      Pre P src D st parent cs pre → TOK rep P src lr ((A, p) :: stk) st →
      eval P src n e parent p st = .ok (b, q, st') →
      b = false ∧ L0 P src lr A p stk m st' ∧
      TPost rep P src lr ((A, p) :: stk) D st parent st' (fun _ ts => m = none → ts = []) := by
  induction hht with
  | @base t =>
    intro n D parent st b q st' cs pre hl hp htok he
    cases n with
    | zero => cases he
    | succ n =>
      simp only [eval, sequenceKernel] at he
      rw [Out.bind_eq_ok] at he
      obtain ⟨⟨b1, q1, st1⟩, h1, h2⟩ := he
      obtain ⟨hc1, kk, hi1, hs1, hcase⟩ := head0T hl hp h1
      have hb1 : b1 = false := by
        rcases hcase with ⟨_, h, _⟩ | ⟨k', hk', _⟩
        · exact h
        · cases b1 with
          | false => rfl
          | true => exact absurd hk' (hm _ _)
      subst hb1
      simp at h2
      obtain ⟨rfl, rfl, rfl⟩ := h2
      refine ⟨rfl, hl.next (hl.ok.of_cache hc1) (.of_cache hc1), ?_⟩
      have hkD : ∀ j ∈ kk, D j := by
        rcases hcase with ⟨_, _, rfl⟩ | ⟨k, _, hk, rfl⟩
        · simp
        · split <;> simp [hk]
      obtain ⟨ts, hts⟩ := UnfL.exists_of hi1 kk hkD
      refine ⟨D, kk, ts, hi1, hs1, hkD, hts, htok.of_cache hp.inv hs1 hc1, fun hmn => ?_⟩
      subst hmn
      rcases hcase with ⟨_, _, rfl⟩ | ⟨k, h, _⟩
      · cases hts; rfl
      · cases h
  | @seq e t c hht ih =>
    intro n D parent st b q st' cs pre hl hp htok he
    cases n with
    | zero => cases he
    | succ n =>
      simp only [eval, sequenceKernel] at he
      rw [Out.bind_eq_ok] at he
      obtain ⟨⟨b1, q1, st1⟩, h1, h2⟩ := he
      obtain ⟨rfl, j1, j2⟩ := ih ht.1 (fun B hB => hcall B (.fst hB)) n D parent st b1 q1 st1 cs pre hl hp htok h1
      simp at h2
      obtain ⟨rfl, rfl, rfl⟩ := h2
      exact ⟨rfl, j1, j2⟩
  | @sub e t _ ih =>
    intro n D parent st b q st' cs pre hl hp htok he
    cases n with
    | zero => cases he
    | succ n =>
      simp only [eval, subexpressionKernel] at he
      rw [Out.bind_eq_ok] at he
      obtain ⟨⟨b1, q1, st1⟩, h1, h2⟩ := he
      obtain ⟨rfl, j1, j2⟩ := ih ht hcall n D parent st b1 q1 st1 cs pre hl hp htok h1
      simp at h2
      obtain ⟨rfl, rfl, rfl⟩ := h2
      exact ⟨rfl, j1, j2⟩
  | @choice e t e' t' hht hht' ih ih' =>
    intro n D parent st b q st' cs pre hl hp htok he
    cases n with
    | zero => cases he
    | succ n =>
      simp only [eval, orderedChoiceKernel] at he
      rw [Out.bind_eq_ok] at he
      obtain ⟨⟨b1, q1, st1⟩, h1, h2⟩ := he
      obtain ⟨rfl, j1, j2⟩ := ih ht.1 (fun B hB => hcall B (.left hB)) n D parent st b1 q1 st1 cs pre hl hp htok h1
      simp only [Bool.false_eq_true, if_false] at h2
      rw [Out.bind_eq_ok] at h2
      obtain ⟨⟨b2, q2, st2⟩, h3, h4⟩ := h2
      have hb : b2 = false ∧ L0 P src lr A p stk m st2 := by
        obtain ⟨D1, ks, ts, g1, g2, g3, g4, g5, g6⟩ := j2
        have := ih' ht.2 (fun B hB => hcall B (.right hB)) n D1 parent st1 b2 q2 st2 _ _ j1 (hp.next g1 g2 g4) g5 h3
        exact ⟨this.1, this.2.1⟩
      obtain ⟨rfl, hl2⟩ := hb
      simp at h4
      obtain ⟨rfl, rfl, rfl⟩ := h4
      refine ⟨rfl, hl2, j2.bind hp ?_⟩
      intro D1 ks ts hts hp1 ht1 _
      obtain ⟨_, _, j3⟩ := ih' ht.2 (fun B hB => hcall B (.right hB)) n D1 parent st1 false q2 st2 _ _ j1 hp1 ht1 h3
      exact j3.mono fun _ us hus hmn => by rw [hts hmn, hus hmn]; rfl

include hT hD hd hpos in
/-- The head expression at level 0, whatever the seed. -/
theorem ht0T_any {e t : Expr R} (hht : HeadTail d.involved A e t) (ht : t.RefsOK lr)
    (hcall : ∀ B, CallsLR P.body t B → CallsLR P.body d.tail B) {m : Option (Bool × Nat × Nat)} (hm : SeedOK p m)
    {n : Nat} (hn : n ≤ N + 1) {D : Nat → Prop} {parent st b q st' cs pre} (hl : L0 P src lr A p stk m st)
    (hp : Pre P src D st parent cs pre) (htok : TOK rep P src lr ((A, p) :: stk) st)
    (he : eval P src n e parent p st = .ok (b, q, st')) :
    TPost rep P src lr ((A, p) :: stk) D st parent st' (fun _ _ => True) := by
  by_cases h : ∃ s k, m = some (true, s, k)
  · obtain ⟨s, k, rfl⟩ := h
    obtain ⟨hk, t, hu, _⟩ := hp.inv.memo A p true s k hl.memo
    exact (ht0T hT hD hd hpos hht ht hcall (hm s k rfl) n hn D parent st b q st' cs pre hl hp htok hu he).mono
      fun _ _ _ => trivial
  · exact (ht0T_none hD hd hpos hht ht hcall (fun s k hsk => h ⟨s, k, hsk⟩) n D parent st b q st' cs pre hl hp htok
      he).2.2.mono fun _ _ _ => trivial

include hT hD hd in
/-- The non-recursive alternatives, while growing `(A, p)`. -/
theorem firstT (hs : Safe P lr stk (.varNameLR d.involved A) p) {n : Nat} (hn : n ≤ N) {D : Nat → Prop} {parent st b q st' cs pre}
    (ho : StOK P src lr ((A, p) :: stk) st) (ha : st.cache.active = some (A, p))
    (hp : Pre P src D st parent cs pre) (htok : TOK rep P src lr ((A, p) :: stk) st)
    (he : eval P src n d.first parent p st = .ok (b, q, st')) :
    TPost rep P src lr ((A, p) :: stk) D st parent st' (fun _ ts => LRT rep P.body lr src pre d.first p b q ts) := by
  have lift : ∀ r, FReach (iterBody P.body lr) d.first.deLR r → FReach (iterBody P.body lr) (iterBody P.body lr A) r := by
    intro r h
    rw [iterBody_lr hd]
    exact h.lift fun _ h => .fst h
  refine hT n hn d.first _ D parent p st b q st' cs pre (hD.refsFirst A d hd).1 ho ?_ ?_ (Or.inr (by rw [ha]; simp)) hp htok he
  · intro x hx
    rcases List.mem_cons.mp hx with rfl | hx
    · exact ⟨Nat.le_refl _, fun _ h => FReach.irrefl hD.wf A (lift _ h)⟩
    · obtain ⟨h1, h2⟩ := hs x hx
      exact ⟨h1, fun h3 h4 => h2 h3 (.step .ref (lift _ h4))⟩
  · intro A' pa ha' d' hd' B hB
    rw [ha] at ha'
    obtain ⟨rfl, rfl⟩ : A = A' ∧ p = pa := by simpa using ha'
    rw [hd] at hd'; cases hd'
    exact hD.noReentry A d hd B (Or.inl hB)

/-- The forest of one evaluation of `A`'s body for the seed `m`, whose tree is `tm`. -/
def NewSpec (rep : Prop) (P : Parser R U) (src : Source) (lr : R → Option (LRDecl R)) (d : LRDecl R) (p : Nat)
    (m : Option (Bool × Nat × Nat)) (tm : Tree R) (q : Nat) (ts : List (Tree R)) : Prop :=
  (m = none → LRT rep P.body lr src [] d.first p true q ts) ∧
  (∀ s k, m = some (true, s, k) →
    (∃ us, ts = tm :: us ∧ LRT rep P.body lr src [tm] d.tail s true q us) ∨
    (∃ us vs, ts = tm :: (us ++ vs) ∧ LRT rep P.body lr src [tm] d.tail s false s us ∧
      LRT rep P.body lr src (tm :: us) d.first p true q vs ∧ Peg (iterBody P.body lr) src d.first.deLR p true q))

include hT hD hd in
/-- The body at level 0, evaluated for a fresh node. -/
theorem body0T (hs : Safe P lr stk (.varNameLR d.involved A) p) {m : Option (Bool × Nat × Nat)} (hm : SeedOK p m)
    {tm : Tree R} {n : Nat} (hn : n ≤ N + 1) {D : Nat → Prop} {parent st b q st'} (hl : L0 P src lr A p stk m st)
    (hp : Pre P src D st parent [] []) (htok : TOK rep P src lr ((A, p) :: stk) st)
    (htm : ∀ s k, m = some (true, s, k) → UnfL st.pub.nodes [k] [tm])
    (he : eval P src n (P.body A) parent p st = .ok (b, q, st')) :
    TPost rep P src lr ((A, p) :: stk) D st parent st' (fun _ ts => b = true → NewSpec rep P src lr d p m tm q ts) := by
  have hpos : ∀ x ∈ stk, x.2 ≤ p := fun x hx => (hs x hx).1
  have hC := fun n (_ : n ≤ N + 1) => claim_all (src := src) hD n
  obtain ⟨_, e, hbody, hht⟩ := hD.shape A d hd
  rw [hbody] at he
  cases n with
  | zero => cases he
  | succ n =>
    simp only [eval, orderedChoiceKernel] at he
    rw [Out.bind_eq_ok] at he
    obtain ⟨⟨b1, q1, st1⟩, h1, h2⟩ := he
    obtain ⟨i1, i2, i3⟩ := ht0 hC hD hd hpos hht (hD.refsFirst A d hd).2 (fun _ h => h) hm n (by omega) _ _ _ _ _ hl h1
    by_cases h : ∃ s k, m = some (true, s, k)
    · obtain ⟨s, k, rfl⟩ := h
      have j := ht0T hT hD hd hpos hht (hD.refsFirst A d hd).2 (fun _ h => h) (hm s k rfl) n (by omega) D parent st b1 q1 st1
        [] [] hl hp htok (htm s k rfl) h1
      simp only [List.not_mem_nil, if_false, List.nil_append] at j
      dsimp only at h2
      cases b1 with
      | true =>
        simp at h2
        obtain ⟨rfl, rfl, rfl⟩ := h2
        refine j.mono ?_
        rintro ks ts ⟨_, us, qt, rfl, hlrt, hqt, _⟩ _
        obtain rfl := hqt rfl
        refine ⟨by simp, fun s' k' hsk => ?_⟩
        cases hsk
        exact Or.inl ⟨us, rfl, hlrt⟩
      | false =>
        simp only [Bool.false_eq_true, if_false] at h2
        rw [Out.bind_eq_ok] at h2
        obtain ⟨⟨b2, q2, st2⟩, h3, h4⟩ := h2
        obtain ⟨g1, g2, g3⟩ := first_step hC hD hd hs n (by omega) _ _ _ _ _ i1.ok i1.active h3
        refine j.bind hp ?_
        rintro D1 ks ts ⟨_, us, qt, rfl, hlrt, _, hqt⟩ hp1 ht1 _
        obtain rfl := hqt rfl
        have j2 := firstT hT hD hd hs (by omega) i1.ok i1.active hp1 ht1 h3
        have hres : b2 = b ∧ st2 = st' ∧ (b = true → q2 = q) := by
          dsimp only at h4
          cases b2 <;> simp at h4 <;> obtain ⟨rfl, rfl, rfl⟩ := h4 <;> simp
        obtain ⟨rfl, rfl, hq⟩ := hres
        refine j2.mono fun ks2 vs hvs hb => ?_
        subst hb
        obtain rfl := hq rfl
        refine ⟨by simp, fun s' k' hsk => ?_⟩
        cases hsk
        exact Or.inr ⟨us, vs, by simp, hlrt, by simpa using hvs, g1⟩
    · obtain ⟨rfl, i1, j⟩ := ht0T_none hD hd hpos hht (hD.refsFirst A d hd).2 (fun _ h => h)
        (fun s k hsk => h ⟨s, k, hsk⟩) n D parent st b1 q1 st1 [] [] hl hp htok h1
      simp only [Bool.false_eq_true, if_false] at h2
      rw [Out.bind_eq_ok] at h2
      obtain ⟨⟨b2, q2, st2⟩, h3, h4⟩ := h2
      refine j.bind hp ?_
      intro D1 ks ts hts hp1 ht1 _
      have j2 := firstT hT hD hd hs (by omega) i1.ok i1.active hp1 ht1 h3
      have hres : b2 = b ∧ st2 = st' ∧ (b = true → q2 = q) := by
        dsimp only at h4
        cases b2 <;> simp at h4 <;> obtain ⟨rfl, rfl, rfl⟩ := h4 <;> simp
      obtain ⟨rfl, rfl, hq⟩ := hres
      refine j2.mono fun ks2 vs hvs hb => ⟨fun hmn => ?_, fun s k hsk => absurd ⟨s, k, hsk⟩ h⟩
      subst hb
      obtain rfl := hq rfl
      obtain rfl := hts hmn
      simpa using hvs

/-- What the level-1 evaluation leaves in the memo table. -/
def NewOK (rep : Prop) (P : Parser R U) (src : Source) (lr : R → Option (LRDecl R)) (A : R) (d : LRDecl R) (p : Nat)
    (m : Option (Bool × Nat × Nat)) (tm : Tree R) (st : St R U) : Prop :=
  ∃ b1 q1 k1 t1, st.cache.memo A p = some (b1, q1, k1) ∧ UnfL st.pub.nodes [k1] [t1] ∧
    (b1 = true → ∃ ts, t1 = .node A (some (p, q1)) ts ∧ NewSpec rep P src lr d p m tm q1 ts)

theorem NewOK.next {m : Option (Bool × Nat × Nat)} {tm : Tree R} {D D' : Nat → Prop} {st st' : St R U} {parent ks}
    (h : NewOK rep P src lr A d p m tm st) (hi : Inv True P.body src D st) (hs : Step True D st D' st' parent ks)
    (hm : st'.cache.memo A p = st.cache.memo A p) : NewOK rep P src lr A d p m tm st' := by
  obtain ⟨b1, q1, k1, t1, h1, h2, h3⟩ := h
  exact ⟨b1, q1, k1, t1, hm.trans h1, hs.unf hi (by simpa using (hi.memo A p b1 q1 k1 h1).1) h2, h3⟩

include hT hh hD hd in
/-- The head reference at level 1. -/
theorem head1T (hnot : (A, p) ∉ stk) (hs : Safe P lr stk (.varNameLR d.involved A) p) {inv : List R}
    {m : Option (Bool × Nat × Nat)} (hm : SeedOK p m) {tm : Tree R} {n parent : Nat} (hn : n ≤ N + 1) {D : Nat → Prop}
    {st st1 : St R U} {b1 : Bool} {q1 : Nat} {cs pre} (hl : L1 P src lr A p stk m st) (hp : Pre P src D st parent cs pre)
    (htok : TOK rep P src lr ((A, p) :: stk) st) (htm : ∀ s k, m = some (true, s, k) → UnfL st.pub.nodes [k] [tm])
    (h1 : eval P src n (.varNameLR inv A) parent p st = .ok (b1, q1, st1)) :
    TPost rep P src lr ((A, p) :: stk) D st parent st1 (fun _ _ => NewOK rep P src lr A d p m tm st1) := by
  have hC := fun n (_ : n ≤ N + 1) => claim_all (src := src) hD n
  have hposD := hp.inv.pos
  cases n with
  | zero => cases h1
  | succ n =>
    obtain ⟨hh', hh1, hh2, hh3⟩ := hl.head
    simp only [eval, varNameLRKernel, shouldGrow, hl.active, Cache.checkHead, hh1, Out.bind_ok, Bool.false_eq_true,
      if_false, lrInner, Cache.ruleInEvalSet] at h1
    rw [if_pos (by simpa using hh2)] at h1
    rcases reserve_cases st A with e | e
    · rw [e] at h1; cases h1
    rw [e] at h1
    simp only [Out.bind_ok, St.removeFromEvalSet, Cache.removeFromEvalSet, hh1] at h1
    have hi0 := hp.inv.reserve A
    have hs0 := Step.reserve (parent := parent) hp.inv A hp.lt
    have hi1 := hi0.setCache (st.cache.putHead A p { hh' with evalSet := hh'.evalSet.filter (· ≠ A) }) rfl (by
      intro r' p' e
      simp only [Cache.putHead] at e ⊢
      split
      · exact ⟨_, rfl⟩
      · exact hp.inv.active r' p' e)
    have hs1 := hs0.setCache (st.cache.putHead A p { hh' with evalSet := hh'.evalSet.filter (· ≠ A) }) rfl
    generalize hst1 : ({ st with
            pub := { nodes := st.pub.nodes ++ [blank st.pub.nodes.length A] }
            cache := st.cache.putHead A p { hh' with evalSet := hh'.evalSet.filter (· ≠ A) } } : St R U) = sb at *
    have cb : sb.cache = st.cache.putHead A p { hh' with evalSet := hh'.evalSet.filter (· ≠ A) } := by subst hst1; rfl
    have hnb : sb.pub.nodes[st.pub.nodes.length]? = some (blank st.pub.nodes.length A) := by
      subst hst1; simp
    have hlen1 : sb.pub.nodes.length = st.pub.nodes.length + 1 := by subst hst1; simp
    have hkD : ¬ D st.pub.nodes.length := fun h => by have := hp.inv.bound _ h; omega
    rw [Out.bind_eq_ok] at h1
    obtain ⟨⟨b2, q2, sc⟩, a3, h1⟩ := h1
    have hl0 : L0 P src lr A p stk m sb := by
      refine ⟨⟨?_, ?_, ?_, hl.ok.stk⟩, ?_, ?_, ?_⟩
      · rw [cb]; exact hl.ok.memo
      · rw [cb]
        intro r p' h hn hh'
        have : ¬ (r = A ∧ p' = p) := fun h => hn (by simp [h.1, h.2])
        simp only [Cache.putHead] at hh'
        rw [if_neg this] at hh'
        exact hl.ok.heads r p' h hn hh'
      · rw [cb]
        intro r p' h hh''
        simp only [Cache.putHead] at hh''
        split at hh''
        · next heq =>
          obtain ⟨rfl, rfl⟩ := heq
          simp only [Option.some.injEq] at hh''
          subst hh''
          obtain ⟨d', g1, g2, g3⟩ := hl.ok.inv _ _ _ hh1
          refine ⟨d', g1, g2, fun x hx => ?_⟩
          exact g3 x (List.mem_filter.mp hx).1
        · exact hl.ok.inv r p' h hh''
      · rw [cb]; exact hl.active
      · refine ⟨{ hh' with evalSet := hh'.evalSet.filter (· ≠ A) }, ?_, by simp, hh3⟩
        rw [cb]; simp [Cache.putHead]
      · rw [cb]; exact hl.memo
    have htok1 : TOK rep P src lr ((A, p) :: stk) sb := by
      refine htok.of hp.inv hs1 (fun r p' b q k hn e => Or.inl ⟨hn, by rw [cb] at e; exact e⟩) (fun r p' hr hme => ?_)
      rw [cb] at hme ⊢
      simp only [Cache.putHead]
      split
      · simp
      · exact htok.headed r p' hr hme
    have hp1 : Pre P src D sb st.pub.nodes.length [] [] := ⟨hi1, hkD, ⟨_, hnb, rfl⟩, .nil⟩
    have hpost := TPost.withRun hh (body0T hT hD hd hs hm (n := n) (by omega) hl0 hp1 htok1
      (fun s k hsk => hs1.unf hp.inv (by simpa using (hp.inv.memo A p true s k (hl.memo.trans hsk)).1) (htm s k hsk)) a3) hp1 a3
    obtain ⟨D2, ks, ts, hi2, hs2, hk2, hu2, ht2, hspec, hrun⟩ := hpost
    have hnd2 := hs2.par _ hnb
    simp only [blank, List.nil_append] at hnd2
    rw [updateEntry_eq hnd2 b2 p q2] at h1
    simp only [Out.bind_ok] at h1
    have hck2 : ¬ D2 st.pub.nodes.length := fun h => by
      rcases hs2.fresh _ h with h | h
      · exact hkD h
      · omega
    have hs2' : Step True D st D2 sc parent [] := Step.outer hs1 hs2 (Nat.le_refl _) hp.par hp.lt
    obtain ⟨hi3, hu3, hst3⟩ := hi2.finish hck2 (by omega) hnd2 hu2 b2 p q2
    have hs3 := hs2'.finish (nd := ⟨st.pub.nodes.length, A, 0, 0, false, ks⟩) hp.inv.bound (Nat.le_refl _) hp.lt b2 p q2
    have hi4 := Inv.insert (r := A) (p := p) (b := b2) (q := q2) hi3 (Or.inr rfl) hu3 (Or.inl ⟨ts, hrun, rfl⟩)
    have hs4 := Step.insert (r := A) (p := p) (b := b2) (q := q2) (k := st.pub.nodes.length) hs3 (Or.inl trivial)
    have hl4 := Nat.lt_of_lt_of_le hp.lt hs4.len
    obtain ⟨ndp, hndp⟩ := exists_getElem? hl4
    have hp4 : ¬ (D2 parent ∨ parent = st.pub.nodes.length) := by
      have := hp.lt
      rintro (h | h)
      · rcases hs2'.fresh _ h with h | h
        · exact hp.par h
        · omega
      · omega
    obtain ⟨hi5, hs5⟩ := hi4.connected hp4 hndp (Or.inr rfl)
    rw [connect_eq hndp (by have := hp.lt; omega)] at h1
    simp at h1
    obtain ⟨rfl, rfl, rfl⟩ := h1
    have hu5 := hs5.unf hi4 (ks := [st.pub.nodes.length]) (by simp) hu3
    refine ⟨_, _, _, hi5, hs4.trans hs5, by simp, hu5, ?_, b2, q2, st.pub.nodes.length, _, ?_, hu5, ?_⟩
    · have hheads : sc.cache.heads A p ≠ none := by
        obtain ⟨h0, _, _⟩ := body0 hC hD hd hs hm n (by omega) _ _ _ _ _ hl0 a3
        obtain ⟨x, hx, _⟩ := h0.head
        rw [hx]; simp
      refine ht2.ofU hi2 (fun k t hk hu => hs5.unf hi4 (by simpa using Or.inl hk) (hst3 _ _ (by simpa using hk) hu)) ?_ ?_
      · intro r p' b q k hn e
        have : ¬ (r = A ∧ p' = p) := fun h => hn (by simp [h.1, h.2])
        simp only [St.connected, St.createCacheEntry, Cache.insert] at e
        rw [if_neg this] at e
        exact Or.inl ⟨hn, e⟩
      · intro r p' hr hme
        by_cases h : r = A ∧ p' = p
        · obtain ⟨rfl, rfl⟩ := h; exact hheads
        · simp only [St.connected, St.createCacheEntry, Cache.insert] at hme
          rw [if_neg h] at hme
          exact ht2.headed r p' hr hme
    · simp [St.connected, St.createCacheEntry, Cache.insert]
    · intro hb
      subst hb
      exact ⟨ts, by simp [Tree.mk], hspec rfl⟩

include hT hh hD hd in
/-- The head expression at level 1. -/
theorem ht1T (hnot : (A, p) ∉ stk) (hs : Safe P lr stk (.varNameLR d.involved A) p) {e t : Expr R}
    (hht : HeadTail d.involved A e t) (ht : t.RefsOK lr)
    (hcall : ∀ B, CallsLR P.body t B → CallsLR P.body d.tail B) {m : Option (Bool × Nat × Nat)} (hm : SeedOK p m)
    {tm : Tree R} :
    ∀ n, n ≤ N + 1 → ∀ D parent st b q st' cs pre, L1 P src lr A p stk m st → Pre P src D st parent cs pre →
      TOK rep P src lr ((A, p) :: stk) st → (∀ s k, m = some (true, s, k) → UnfL st.pub.nodes [k] [tm]) →
      eval P src n e parent p st = .ok (b, q, st') →
      TPost rep P src lr ((A, p) :: stk) D st parent st' (fun _ _ => NewOK rep P src lr A d p m tm st') := by
  have hpos : ∀ x ∈ stk, x.2 ≤ p := fun x hx => (hs x hx).1
  have hC := fun n (_ : n ≤ N + 1) => claim_all (src := src) hD n
  have memoEq : ∀ {m' : Option (Bool × Nat × Nat)} {s1 s2 : St R U}, L0 P src lr A p stk m' s1 → L0 P src lr A p stk m' s2 →
      s2.cache.memo A p = s1.cache.memo A p := fun h1 h2 => h2.memo.trans h1.memo.symm
  -- once the memo table has the new entry, level-0 calls keep it
  have keep : ∀ {D : Nat → Prop} {parent : Nat} {s1 s2 : St R U} {cs pre S}, NewOK rep P src lr A d p m tm s1 →
      Pre P src D s1 parent cs pre → s2.cache.memo A p = s1.cache.memo A p →
      TPost rep P src lr ((A, p) :: stk) D s1 parent s2 S →
      TPost rep P src lr ((A, p) :: stk) D s1 parent s2 (fun _ _ => NewOK rep P src lr A d p m tm s2) := by
    intro D parent s1 s2 cs pre S hnew hp hme hpost
    obtain ⟨D', ks, ts, h1, h2, h3, h4, h5, _⟩ := hpost
    exact ⟨D', ks, ts, h1, h2, h3, h4, h5, hnew.next hp.inv h2 hme⟩
  induction hht with
  | @base t =>
    intro n hn D parent st b q st' cs pre hl hp htok htm he
    cases n with
    | zero => cases he
    | succ n =>
      simp only [eval, sequenceKernel] at he
      rw [Out.bind_eq_ok] at he
      obtain ⟨⟨b1, q1, st1⟩, h1, h2⟩ := he
      obtain ⟨k1, f1, f2, f3⟩ := head1 hC hD hd hnot hs hm (by omega) hl h1
      have j := head1T hT hh hD hd hnot hs hm (n := n) (by omega) hl hp htok htm h1
      dsimp only at h2
      cases b1 with
      | false =>
        simp at h2
        obtain ⟨rfl, rfl, rfl⟩ := h2
        exact j
      | true =>
        have hq1 := fspec_pos hD hd hm f1 rfl
        simp only [if_true] at h2
        rw [Out.bind_eq_ok] at h2
        obtain ⟨⟨b2, q2, st2⟩, h3, h4⟩ := h2
        have hst : st2 = st' := by
          dsimp only at h4
          cases b2 <;> simp at h4 <;> exact h4.2.2
        subst hst
        refine j.bind hp ?_
        intro D1 ks ts hnew hp1 ht1 _
        obtain ⟨g1, g2, g3⟩ := tailT hT hD hd hpos ht hcall (by omega) hq1 f2 hp1 ht1 h3
        exact keep hnew hp1 (memoEq f2 g2) g3
  | @seq e t c hht ih =>
    intro n hn D parent st b q st' cs pre hl hp htok htm he
    cases n with
    | zero => cases he
    | succ n =>
      simp only [eval, sequenceKernel] at he
      rw [Out.bind_eq_ok] at he
      obtain ⟨⟨b1, q1, st1⟩, h1, h2⟩ := he
      obtain ⟨⟨b0, q0, k0, i0, i1⟩, i2, i3⟩ := ht1 hC hD hd hnot hs hht ht.1 (fun B hB => hcall B (.fst hB)) hm n (by omega)
        _ _ _ _ _ hl h1
      have j := ih ht.1 (fun B hB => hcall B (.fst hB)) n (by omega) D parent st b1 q1 st1 cs pre hl hp htok htm h1
      dsimp only at h2
      cases b1 with
      | false =>
        simp at h2
        obtain ⟨rfl, rfl, rfl⟩ := h2
        exact j
      | true =>
        simp only [if_true] at h2
        rw [Out.bind_eq_ok] at h2
        obtain ⟨⟨b2, q2, st2⟩, h3, h4⟩ := h2
        have hst : st2 = st' := by
          dsimp only at h4
          cases b2 <;> simp at h4 <;> exact h4.2.2
        subst hst
        refine j.bind hp ?_
        intro D1 ks ts hnew hp1 ht1 _
        obtain ⟨g1, g2, g3⟩ := tailT hT hD hd hpos ht.2 (fun B hB => hcall B (.snd hB)) (by omega) (i3 rfl) i1 hp1 ht1 h3
        exact keep hnew hp1 (memoEq i1 g2) g3
  | @sub e t _ ih =>
    intro n hn D parent st b q st' cs pre hl hp htok htm he
    cases n with
    | zero => cases he
    | succ n =>
      simp only [eval, subexpressionKernel] at he
      rw [Out.bind_eq_ok] at he
      obtain ⟨⟨b1, q1, st1⟩, h1, h2⟩ := he
      have j := ih ht hcall n (by omega) D parent st b1 q1 st1 cs pre hl hp htok htm h1
      have hst : st1 = st' := by
        dsimp only at h2
        cases b1 <;> simp at h2 <;> exact h2.2.2
      subst hst
      exact j
  | @choice e t e' t' hht hht' ih _ =>
    intro n hn D parent st b q st' cs pre hl hp htok htm he
    cases n with
    | zero => cases he
    | succ n =>
      simp only [eval, orderedChoiceKernel] at he
      rw [Out.bind_eq_ok] at he
      obtain ⟨⟨b1, q1, st1⟩, h1, h2⟩ := he
      obtain ⟨⟨b0, q0, k0, i0, i1⟩, i2, i3⟩ := ht1 hC hD hd hnot hs hht ht.1 (fun B hB => hcall B (.left hB)) hm n (by omega)
        _ _ _ _ _ hl h1
      have j := ih ht.1 (fun B hB => hcall B (.left hB)) n (by omega) D parent st b1 q1 st1 cs pre hl hp htok htm h1
      dsimp only at h2
      cases b1 with
      | true =>
        simp at h2
        obtain ⟨rfl, rfl, rfl⟩ := h2
        exact j
      | false =>
        simp only [Bool.false_eq_true, if_false] at h2
        rw [Out.bind_eq_ok] at h2
        obtain ⟨⟨b2, q2, st2⟩, h3, h4⟩ := h2
        have hst : st2 = st' := by
          dsimp only at h4
          cases b2 <;> simp at h4 <;> exact h4.2.2
        subst hst
        have hm' : SeedOK p (some (b0, q0, k0)) := by
          intro s k h
          obtain ⟨rfl, rfl, rfl⟩ : b0 = true ∧ q0 = s ∧ k0 = k := by simpa using h
          exact fspec_pos hD hd hm i0 rfl
        refine j.bind hp ?_
        intro D1 ks ts hnew hp1 ht1 _
        obtain ⟨j1, _, _⟩ := ht0 hC hD hd hpos hht' ht.2 (fun B hB => hcall B (.right hB)) hm' n (by omega) _ _ _ _ _ i1 h3
        exact keep hnew hp1 (memoEq i1 j1)
          (ht0T_any hT hD hd hpos hht' ht.2 (fun B hB => hcall B (.right hB)) hm' (by omega) i1 hp1 ht1 h3)

include hT hh hD hd in
/-- The body at level 1. -/
theorem body1T (hnot : (A, p) ∉ stk) (hs : Safe P lr stk (.varNameLR d.involved A) p)
    {m : Option (Bool × Nat × Nat)} (hm : SeedOK p m) {tm : Tree R} {n : Nat} (hn : n ≤ N + 1) {D : Nat → Prop}
    {parent st b q st' cs pre} (hl : L1 P src lr A p stk m st) (hp : Pre P src D st parent cs pre)
    (htok : TOK rep P src lr ((A, p) :: stk) st) (htm : ∀ s k, m = some (true, s, k) → UnfL st.pub.nodes [k] [tm])
    (he : eval P src n (P.body A) parent p st = .ok (b, q, st')) :
    TPost rep P src lr ((A, p) :: stk) D st parent st' (fun _ _ => NewOK rep P src lr A d p m tm st') := by
  have hC := fun n (_ : n ≤ N + 1) => claim_all (src := src) hD n
  obtain ⟨_, e, hbody, hht⟩ := hD.shape A d hd
  rw [hbody] at he
  cases n with
  | zero => cases he
  | succ n =>
    simp only [eval, orderedChoiceKernel] at he
    rw [Out.bind_eq_ok] at he
    obtain ⟨⟨b1, q1, st1⟩, h1, h2⟩ := he
    obtain ⟨⟨b0, q0, k0, i0, i1⟩, i2, i3⟩ := ht1 hC hD hd hnot hs hht (hD.refsFirst A d hd).2 (fun _ h => h) hm n (by omega)
      _ _ _ _ _ hl h1
    have j := ht1T hT hh hD hd hnot hs hht (hD.refsFirst A d hd).2 (fun _ h => h) hm n (by omega) D parent st b1 q1 st1 cs pre
      hl hp htok htm h1
    dsimp only at h2
    cases b1 with
    | true =>
      simp at h2
      obtain ⟨rfl, rfl, rfl⟩ := h2
      exact j
    | false =>
      simp only [Bool.false_eq_true, if_false] at h2
      rw [Out.bind_eq_ok] at h2
      obtain ⟨⟨b2, q2, st2⟩, h3, h4⟩ := h2
      obtain ⟨g1, g2, g3⟩ := first_step hC hD hd hs n (by omega) _ _ _ _ _ i1.ok i1.active h3
      have hst : st2 = st' := by
        dsimp only at h4
        cases b2 <;> simp at h4 <;> exact h4.2.2
      subst hst
      refine j.bind hp ?_
      intro D1 ks ts hnew hp1 ht1 _
      obtain ⟨D', ks', ts', e1, e2, e3, e4, e5, _⟩ := firstT hT hD hd hs (by omega) i1.ok i1.active hp1 ht1 h3
      exact ⟨D', ks', ts', e1, e2, e3, e4, e5, hnew.next hp1.inv e2 (g3.memo (A, p) (by simp))⟩

theorem refOf_lr (hd : lr A = some d) : refOf lr A = .varNameLR d.involved A := by simp [refOf, hd]

theorem Peg.lr_first_false (hd : lr A = some d) {q : Nat} (h : Peg (iterBody P.body lr) src (.varName A) p false q) :
    Peg (iterBody P.body lr) src d.first.deLR p false p := by
  cases h with
  | ref hp =>
    rw [iterBody_lr hd] at hp
    cases hp with
    | seq_fail1 h1 => have := h1.bounds.1 rfl; subst this; exact h1
    | seq_fail2 _ h2 => cases h2

include hT hh hD hd in
/-- The growth loop; `Db`, `sb` describe the state in which the call was made. -/
theorem growthLoopT (hnot : (A, p) ∉ stk) (hs : Safe P lr stk (.varNameLR d.involved A) p) {n : Nat} (hn : n ≤ N + 1)
    {parent : Nat} {prev : Option (R × Nat)} {Db : Nat → Prop} {sb : St R U}
    (hpar : ¬ Db parent) (hlt : parent < sb.pub.nodes.length)
    (hprev : ∀ r p', prev = some (r, p') → sb.cache.heads r p' ≠ none) {pre : List (Tree R)} :
    ∀ f last lk ck st m b q st' D tl nd, StOK P src lr ((A, p) :: stk) st →
      st.cache.active = some (A, p) → (∃ h, st.cache.heads A p = some h ∧ A ∈ h.involved) → st.cache.memo A p = m →
      Phase P src lr A d p m last →
      Inv True P.body src D st → Step True Db sb D st parent [] → TOK rep P src lr ((A, p) :: stk) st →
      (∀ r p', sb.cache.heads r p' ≠ none → st.cache.heads r p' ≠ none) →
      ¬ D ck → sb.pub.nodes.length ≤ ck → st.pub.nodes[ck]? = some nd → nd.children = [] →
      D lk → UnfL st.pub.nodes [lk] [tl] →
      (last.1 = false → m ≠ none → rep) →
      (∀ s k, m = some (true, s, k) → ∃ tm, UnfL st.pub.nodes [k] [tm] ∧ Grown rep P.body lr src A d p s tm) →
      (last.1 = false → tl = .node A none []) → (last.1 = true → Grown rep P.body lr src A d p last.2 tl) →
      MemoOK True P.body src A p last.1 last.2 tl →
      growthLoop A (eval P src n (P.body A)) parent p prev f last lk ck st = .ok (b, q, st') →
      TPost rep P src lr stk Db sb parent st' (fun _ ts => LRT rep P.body lr src pre (.varNameLR d.involved A) p b q ts) := by
  have hC := fun n (_ : n ≤ N + 1) => claim_all (src := src) hD n
  intro f
  induction f with
  | zero => intro last lk ck st m b q st' D tl nd _ _ _ _ _ _ _ _ _ _ _ _ _ _ _ _ _ _ _ _ h; cases h
  | succ f ihf =>
    intro last lk ck st m b q st' D tl nd ho ha hhd hmemo hph hi hst htok hheads hck hckl hnd hndc hlk hul hrep hseed hlf hlt'
      hml h
    obtain ⟨hh0, hh1, hh2⟩ := hhd
    unfold growthLoop at h
    have hre : st.reinitializeEvalSet A p =
        .ok { st with cache := st.cache.putHead A p { hh0 with evalSet := hh0.involved } } := by
      simp [St.reinitializeEvalSet, Cache.reinitializeEvalSet, hh1]
    rw [hre] at h
    simp only [Out.bind_ok] at h
    have hi1 := hi.setCache (st.cache.putHead A p { hh0 with evalSet := hh0.involved }) rfl (by
      intro r' p' e
      simp only [Cache.putHead] at e ⊢
      split
      · exact ⟨_, rfl⟩
      · exact hi.active r' p' e)
    have hs1 := hst.setCache (st.cache.putHead A p { hh0 with evalSet := hh0.involved }) rfl
    have hs01 : Step True D st D { st with cache := st.cache.putHead A p { hh0 with evalSet := hh0.involved } } parent [] :=
      Step.refl.setCache (st.cache.putHead A p { hh0 with evalSet := hh0.involved }) rfl
    have c1 : ({ st with cache := st.cache.putHead A p { hh0 with evalSet := hh0.involved } } : St R U).cache =
        st.cache.putHead A p { hh0 with evalSet := hh0.involved } := rfl
    have hnd1 : ({ st with cache := st.cache.putHead A p { hh0 with evalSet := hh0.involved } } : St R U).pub.nodes[ck]?
        = some nd := hnd
    have hul1 : UnfL ({ st with cache := st.cache.putHead A p { hh0 with evalSet := hh0.involved } } : St R U).pub.nodes
        [lk] [tl] := hul
    generalize hst1 : ({ st with cache := st.cache.putHead A p { hh0 with evalSet := hh0.involved } } : St R U) = s1 at *
    have hl1 : L1 P src lr A p stk m s1 := by
      refine ⟨⟨?_, ?_, ?_, ho.stk⟩, ?_, ?_, ?_⟩
      · rw [c1]; exact ho.memo
      · rw [c1]
        intro r p' h hn hh'
        have : ¬ (r = A ∧ p' = p) := fun h => hn (by simp [h.1, h.2])
        simp only [Cache.putHead] at hh'
        rw [if_neg this] at hh'
        exact ho.heads r p' h hn hh'
      · rw [c1]
        intro r p' h hh'
        simp only [Cache.putHead] at hh'
        split at hh'
        · next heq =>
          obtain ⟨rfl, rfl⟩ := heq
          simp only [Option.some.injEq] at hh'
          subst hh'
          obtain ⟨d', g1, g2, g3⟩ := ho.inv _ _ _ hh1
          exact ⟨d', g1, g2, fun x hx => hx⟩
        · exact ho.inv r p' h hh'
      · rw [c1]; exact ha
      · refine ⟨{ hh0 with evalSet := hh0.involved }, ?_, hh2, hh2⟩
        rw [c1]; simp [Cache.putHead]
      · rw [c1]; exact hmemo
    have hheads1 : ∀ r p', sb.cache.heads r p' ≠ none → s1.cache.heads r p' ≠ none := by
      intro r p' hne
      rw [c1]
      simp only [Cache.putHead]
      split
      · simp
      · exact hheads r p' hne
    have htok1 : TOK rep P src lr ((A, p) :: stk) s1 := by
      refine htok.of hi hs01 (fun r p' b q k hn e => Or.inl ⟨hn, by rw [c1] at e; exact e⟩) (fun r p' hr hme => ?_)
      rw [c1] at hme ⊢
      simp only [Cache.putHead]
      split
      · simp
      · exact htok.headed r p' hr hme
    rw [Out.bind_eq_ok] at h
    obtain ⟨⟨b0, q0, s2⟩, a2, h⟩ := h
    have hm : SeedOK p m := by
      intro s k hsk
      rcases hph with ⟨_, h⟩ | ⟨s', k', _, h, hlt, _⟩
      · obtain ⟨q', g1, g2⟩ := Peg.lr_inv hd (h _ _ _ hsk)
        have h1 : p < q' := by
          rcases g1.bounds.2 with h | h
          · exact absurd (g1.mayBeEmpty rfl h) (hD.firstConsumes A d hd)
          · exact h.1
        have := g2.bounds.2
        omega
      · rw [hsk] at h; cases h; exact hlt
    obtain ⟨⟨b1, q1, k1, f1, l0⟩, hf2⟩ := body1 hC hD hd hnot hs hm n (by omega) _ _ _ _ _ hl1 a2
    -- the seed's tree
    obtain ⟨tm, htm, hgm⟩ : ∃ tm, (∀ s k, m = some (true, s, k) → UnfL s1.pub.nodes [k] [tm]) ∧
        (∀ s k, m = some (true, s, k) → Grown rep P.body lr src A d p s tm) := by
      by_cases hex : ∃ s k, m = some (true, s, k)
      · obtain ⟨s, k, rfl⟩ := hex
        obtain ⟨tm, hu, hg⟩ := hseed s k rfl
        refine ⟨tm, ?_, ?_⟩
        · intro s' k' e; cases e
          exact hs01.unf hi (by simpa using (hi.memo A p true s k hmemo).1) hu
        · intro s' k' e; cases e; exact hg
      · exact ⟨tl, fun s k e => absurd ⟨s, k, e⟩ hex, fun s k e => absurd ⟨s, k, e⟩ hex⟩
    have hp1 : Pre P src D s1 ck [] [] := ⟨hi1, hck, ⟨nd, hnd1, hndc⟩, .nil⟩
    obtain ⟨D2, ks, ts, hi2, hs2, hk2, hu2, ht2, hnew⟩ := body1T hT hh hD hd hnot hs hm (tm := tm) hn hl1 hp1 htok1 htm a2
    have hs2' : Step True Db sb D2 s2 parent [] := Step.outer hs1 hs2 hckl hpar hlt
    have hlk2 := hs2.mono lk hlk
    have hul2 : UnfL s2.pub.nodes [lk] [tl] := hs2.unf hi1 (by simpa using hlk) hul1
    have hheads2 : ∀ r p', sb.cache.heads r p' ≠ none → s2.cache.heads r p' ≠ none := by
      intro r p' hne
      have := eval_ctr (lr := True) P src hh (fun _ => Or.inl trivial) n (P.body A) (Or.inl trivial) D s1 ck p hp1.inv hp1.par
        hp1.lt
      rw [a2] at this
      obtain ⟨_, _, _, _, _, hkeep, _⟩ := this
      have h1 := hheads1 r p' hne
      cases hx : s1.cache.heads r p' with
      | none => exact absurd hx h1
      | some x =>
        obtain ⟨x', hx', _⟩ := hkeep.heads r p' x hx
        rw [hx']; simp
    obtain ⟨b1', q1', k1', t1, hme, hut1, hspec⟩ := hnew
    rw [l0.memo] at hme
    obtain ⟨rfl, rfl, rfl⟩ : b1 = b1' ∧ q1 = q1' ∧ k1 = k1' := by simpa using hme
    have hpick : growthPick s2 A p ck b0 q0 = (k1, b1, q1) := by
      simp only [growthPick, Cache.check, l0.memo]
    dsimp only at h
    rw [hpick] at h
    dsimp only at h
    obtain ⟨hDk1, t1', hut1', hok1⟩ := hi2.memo A p b1 q1 k1 l0.memo
    obtain rfl : t1 = t1' := by simpa using hut1.unique hut1'
    obtain ⟨ndm, hndm⟩ := exists_getElem? (hi2.bound k1 hDk1)
    have hsp : ndm.spanOf = if b1 then some (p, q1) else none := by
      cases hut1 with
      | cons e1 _ _ =>
        rw [hndm] at e1
        obtain rfl := Option.some.inj e1
        rcases hok1 with ⟨ts', _, ht⟩ | ⟨_, rfl, rfl, ht⟩
        · simp only [Tree.mk, Tree.node.injEq] at ht; exact ht.2.1
        · simp only [Tree.mk, Tree.node.injEq] at ht; simpa using ht.2.1
    obtain ⟨hi3, hst3, hsim⟩ := hi2.rewrite hndm hsp
    rw [updateEntry_eq hndm b1 p q1] at h
    simp only [Out.bind_ok] at h
    have hs3 := hs2'.rewrite hndm hDk1 hpar hlt hsim
    have c3 : (s2.updated k1 ndm b1 p q1).cache = s2.cache := rfl
    have l3 := l0.next (l0.ok.of_cache c3) (.of_cache c3)
    have ht3 : TOK rep P src lr ((A, p) :: stk) (s2.updated k1 ndm b1 p q1) :=
      ht2.ofU hi2 (fun _ _ _ hu => hst3 _ _ hu) (fun r p' b q k hn e => Or.inl ⟨hn, e⟩) ht2.headed
    have hul3 := hst3 _ _ hul2
    have hut3 := hst3 _ _ hut1
    have hheads3 : ∀ r p', sb.cache.heads r p' ≠ none → (s2.updated k1 ndm b1 p q1).cache.heads r p' ≠ none := hheads2
    generalize s2.updated k1 ndm b1 p q1 = s3 at *
    have hl3 : parent < s3.pub.nodes.length := Nat.lt_of_lt_of_le hlt hs3.len
    have hp3 : ¬ D2 parent := fun h => by
      rcases hs3.fresh _ h with h | h
      · exact hpar h
      · omega
    -- without a seed, or with one that cannot be extended, the body is its non-recursive part
    have phase1 : last.1 = false → Peg (iterBody P.body lr) src d.first.deLR p b1 q1 := by
      intro hlast
      rcases hph with ⟨rfl, h'⟩ | ⟨s, k, rfl, _⟩
      · rcases f1 with ⟨s, k, hsk, _, ht⟩ | ⟨_, _, _, _, h⟩ | ⟨_, h⟩
        · obtain ⟨q', _, g2⟩ := Peg.lr_inv hd (h' _ _ _ hsk)
          have := (g2.star_end.det ht).1
          cases this
        · exact h
        · exact h
      · cases hlast
    split at h
    · -- the growth stops
      next hstop =>
      obtain ⟨ndp, hndp⟩ := exists_getElem? hl3
      obtain ⟨hi4, hs4⟩ := hi3.connected hp3 hndp hlk2
      rw [connect_eq hndp (fun h => hp3 (h ▸ hlk2))] at h
      simp at h
      obtain ⟨rfl, rfl, rfl⟩ := h
      have hul4 := hs4.unf hi3 (ks := [lk]) (by simpa using hlk2) hul3
      have hs4' := hs3.trans hs4
      have c4 : (s3.connected parent ndp lk).cache = s3.cache := rfl
      have ht4 := ht3.of_cache hi3 hs4 c4
      have hheads4 : ∀ r p', sb.cache.heads r p' ≠ none → (s3.connected parent ndp lk).cache.heads r p' ≠ none := hheads3
      have l4 := l3.next (l3.ok.of_cache c4) (.of_cache c4)
      generalize s3.connected parent ndp lk = s4 at *
      have hi5 : Inv True P.body src D2 (s4.setActive prev) :=
        hi4.setCache (s4.cache.setActive prev) rfl (by
          intro r' p' e
          simp only [Cache.setActive] at e ⊢
          have := hheads4 r' p' (hprev r' p' e)
          cases hx : s4.cache.heads r' p' with
          | none => exact absurd hx this
          | some x => exact ⟨x, rfl⟩)
      have hs5 : Step True Db sb D2 (s4.setActive prev) parent ([] ++ [lk]) :=
        hs4'.setCache (s4.cache.setActive prev) rfl
      -- the specification of the result
      have hlrt : ∀ pre, LRT rep P.body lr src pre (.varNameLR d.involved A) p last.1 last.2 [tl] := by
        intro pre
        cases hl1' : last.1 with
        | false =>
          rw [hlf hl1']
          have hq : last.2 = p := by
            rcases hph with ⟨rfl, _⟩ | ⟨s, k, rfl, _⟩
            · rfl
            · cases hl1'
          rw [hq]
          refine .lr_fail hd ?_
          have hf := phase1 hl1'
          cases b1 with
          | false => have := hf.bounds.1 rfl; subst this; exact hf
          | true =>
            have := fspec_pos hD hd hm f1 rfl
            simp at hstop
            omega
        | true =>
          refine .lr_ok hd (hlt' hl1') ?_
          rcases hph with ⟨rfl, _⟩ | ⟨s, k, rfl, hm', hlt, hreach, hfirst⟩
          · cases hl1'
          rcases f1 with ⟨s', k', hsk, rfl, ht⟩ | ⟨s', k', hsk, ht, _⟩ | ⟨hne, _⟩
          · rw [hm'] at hsk; cases hsk
            have hne : ¬ MayBeEmpty (iterBody P.body lr) d.tail.deLR := by
              have := hD.wf.noLoop A
              rw [iterBody_lr hd] at this
              exact this.2.1
            simp at hstop
            rcases ht.bounds.2 with h | h
            · exact absurd (ht.mayBeEmpty rfl h) hne
            · omega
          · rw [hm'] at hsk; cases hsk
            exact ht
          · exact absurd hm' (hne _ _)
      refine ⟨D2, _, [tl], hi5.insert (q := last.2) hlk2 hul4 hml, hs5.insert (Or.inl trivial), ?_, hul4, ?_, hlrt pre⟩
      · simpa using hlk2
      · refine ht4.ofU hi4 (fun _ _ _ hu => hu) ?_ ?_
        · intro r p' b q k hn e
          simp only [St.createCacheEntry, St.setActive, Cache.insert, Cache.setActive] at e
          split at e
          · next heq =>
            obtain ⟨rfl, rfl⟩ := heq
            simp only [Option.some.injEq, Prod.mk.injEq] at e
            obtain ⟨rfl, rfl, rfl⟩ := e
            refine Or.inr ⟨tl, hul4, fun pre => ?_⟩
            rw [refOf_lr hd]; exact hlrt pre
          · next hne =>
            refine Or.inl ⟨?_, e⟩
            simp only [List.mem_cons, Prod.mk.injEq, not_or]
            exact ⟨hne, hn⟩
        · intro r p' hr hme
          simp only [St.createCacheEntry, St.setActive, Cache.insert, Cache.setActive] at hme ⊢
          by_cases heq : r = A ∧ p' = p
          · obtain ⟨rfl, rfl⟩ := heq
            obtain ⟨x, hx, _⟩ := l4.head
            rw [hx]; simp
          · rw [if_neg heq] at hme
            exact ht4.headed r p' hr hme
    · -- another iteration
      next hgo =>
      rcases reserve_cases s3 A with e | e
      · rw [e] at h; cases h
      rw [e] at h
      simp only [Out.bind_ok] at h
      have hi4 := hi3.reserve A
      have hs4 := Step.reserve (parent := parent) hi3 A hl3
      have hb1 : b1 = true := by
        cases b1 with
        | true => rfl
        | false => simp at hgo
      subst hb1
      have hq1 : last.2 < q1 := by simpa using hgo
      have hp1' : p < q1 := fspec_pos hD hd hm f1 rfl
      have hg1 : Grown rep P.body lr src A d p q1 t1 := by
        obtain ⟨ts1, rfl, hsp1⟩ := hspec rfl
        cases hm0 : m with
        | none => exact .seed (hsp1.1 hm0)
        | some v =>
          obtain ⟨mb, s, k⟩ := v
          cases mb with
          | true =>
            rcases hsp1.2 s k hm0 with ⟨us, rfl, hlrt⟩ | ⟨us, vs, rfl, hlrt, hlrt', hpeg⟩
            · exact .grow (hgm s k hm0) hlrt
            · rcases hph with ⟨rfl, _⟩ | ⟨s', k', rfl, hm', hlt, hreach, hfirst⟩
              · exact .again (hrep rfl (by rw [hm0]; simp)) (hgm s k hm0) hlrt hlrt'
              · have := hfirst _ _ hpeg
                simp only at hq1
                omega
          | false =>
            exfalso
            rcases hph with ⟨rfl, h'⟩ | ⟨s', k', rfl, hm', _⟩
            · have h1 := Peg.lr_first_false hd (h' _ _ _ hm0)
              have h2 := phase1 rfl
              have := (h1.det h2).1
              cases this
            · rw [hm0] at hm'; cases hm'
      have hphase : Phase P src lr A d p (some (true, q1, k1)) (true, q1) := by
        refine Or.inr ⟨q1, k1, rfl, rfl, hp1', ?_, ?_⟩
        · rcases hph with ⟨rfl, h'⟩ | ⟨s, k, rfl, hm', hlt, hreach, hfirst⟩
          · intro r hr
            exact Peg.lr_true hd (phase1 rfl) hr
          · rcases f1 with ⟨s', k', hsk, _, ht⟩ | ⟨s', k', hsk, ht, h'⟩ | ⟨hne, _⟩
            · rw [hm'] at hsk; cases hsk
              intro r hr
              exact hreach r (.star_step ht hr)
            · have := hfirst _ _ h'
              simp only at hq1
              omega
            · exact absurd hm' (hne _ _)
        · intro b' q' hq'
          rcases hph with ⟨rfl, h'⟩ | ⟨s, k, rfl, hm', hlt, hreach, hfirst⟩
          · have := ((phase1 rfl).det hq').2
            omega
          · have := hfirst _ _ hq'
            simp only at hq1
            omega
      have c4 : ({ s3 with pub := { nodes := s3.pub.nodes ++ [blank s3.pub.nodes.length A] } } : St R U).cache = s3.cache := rfl
      have l4 := l3.next (l3.ok.of_cache c4) (.of_cache c4)
      obtain ⟨hh4, hh5, _, hh6⟩ := l4.head
      have hut4 := hs4.unf hi3 (by simpa using hDk1) hut3
      refine ihf (true, q1) k1 _ _ (some (true, q1, k1)) b q st' D2 t1 (blank s3.pub.nodes.length A) l4.ok l4.active
        ⟨hh4, hh5, hh6⟩ l4.memo hphase hi4 (hs3.trans hs4) (ht3.of_cache hi3 hs4 c4) hheads3 ?_ hs3.len (by simp) rfl hDk1
        hut4 (by simp) ?_ (by simp) (fun _ => hg1) hok1 h
      · intro h
        have := hi3.bound _ h; omega
      · intro s k e
        cases e
        exact ⟨t1, hut4, hg1⟩

include hT hh hD hd in
/-- A left-recursive call. -/
theorem lrT (hs : Safe P lr stk (.varNameLR d.involved A) p) {n : Nat} (hn : n ≤ N + 1) (f : Nat) {D : Nat → Prop}
    {parent : Nat} {st : St R U} {b : Bool} {q : Nat} {st' : St R U} {cs pre} (ho : StOK P src lr stk st)
    (hact : ActOK P lr st.cache.active (.varNameLR d.involved A))
    (hrep : rep ∨ st.cache.active ≠ none ∨ st.cache.memo A p = none) (hp : Pre P src D st parent cs pre)
    (htok : TOK rep P src lr stk st)
    (h : varNameLRKernel f d.involved A (eval P src n (P.body A)) parent p st = .ok (b, q, st')) :
    TPost rep P src lr stk D st parent st' (fun _ ts => LRT rep P.body lr src pre (.varNameLR d.involved A) p b q ts) := by
  have hnot : (A, p) ∉ stk := fun hx => (hs _ hx).2 rfl (.one .ref)
  have hi := hp.inv
  have hl := hp.lt
  have hpos := hi.pos
  have hmem : A ∈ toBTreeSet d.involved := (mem_toBTreeSet _ _).mpr (hD.shape A d hd).1
  -- growing
  have grow : (st.cache.memo A p ≠ none → rep) →
      growthFunction f d.involved A (eval P src n (P.body A)) st.cache.active parent p (st.setActive (some (A, p))) =
        .ok (b, q, st') →
      TPost rep P src lr stk D st parent st'
        (fun _ ts => LRT rep P.body lr src pre (.varNameLR d.involved A) p b q ts) := by
    intro hclean hg
    unfold growthFunction at hg
    rcases reserve_cases (st.setActive (some (A, p))) A with e | e
    · rw [e] at hg; cases hg
    rw [e] at hg
    simp only [Out.bind_ok] at hg
    have hlen : (st.setActive (some (A, p))).pub.nodes = st.pub.nodes := rfl
    rw [hlen] at hg
    have hi1 := hi.reserve A
    have hs1 := Step.reserve (parent := parent) hi A hl
    have hnb : (st.pub.nodes ++ [blank st.pub.nodes.length A])[st.pub.nodes.length]? =
        some (blank st.pub.nodes.length A) := by simp
    have hkD : ¬ D st.pub.nodes.length := fun h => by have := hi.bound _ h; omega
    rw [updateEntry_eq (st := { st.setActive (some (A, p)) with pub := _ }) hnb false 0 0] at hg
    simp only [Out.bind_ok] at hg
    obtain ⟨hi2, hu2, hst2'⟩ := hi1.finish hkD (by omega) (nd := blank st.pub.nodes.length A) (by simp)
      (ts := []) .nil false 0 0
    have hs2 := hs1.finish (nd := blank st.pub.nodes.length A) hi.bound (Nat.le_refl _) hl false 0 0
    generalize hst2 : ({ st with pub := { nodes := st.pub.nodes ++ [blank st.pub.nodes.length A] } } : St R U).updated
      st.pub.nodes.length (blank st.pub.nodes.length A) false 0 0 = st2 at *
    have hc2 : st2.cache = st.cache := by subst hst2; rfl
    have heq : ({ st.setActive (some (A, p)) with
        pub := { nodes := st.pub.nodes ++ [blank st.pub.nodes.length A] } } : St R U).updated
        st.pub.nodes.length (blank st.pub.nodes.length A) false 0 0 = st2.setActive (some (A, p)) := by
      subst hst2; rfl
    rw [heq] at hg
    rcases reserve_cases (st2.setActive (some (A, p))) A with e2 | e2
    · rw [e2] at hg; cases hg
    rw [e2] at hg
    simp only [Out.bind_ok] at hg
    have hlen2 : (st2.setActive (some (A, p))).pub.nodes = st2.pub.nodes := rfl
    rw [hlen2] at hg
    have hl2 : parent < st2.pub.nodes.length := Nat.lt_of_lt_of_le hl hs2.len
    have hi3 := hi2.reserve A
    have hs23 := Step.reserve (parent := parent) hi2 A hl2
    have hs3 := hs2.trans hs23
    have hu3 := hs23.unf hi2 (ks := [st.pub.nodes.length]) (by simp) hu2
    have hi4 := hi3.setCache ((st2.cache.setActive (some (A, p))).setHead p A (toBTreeSet d.involved)) rfl (by
      intro r' p' e
      simp only [Cache.setHead, Cache.putHead, Cache.setActive, Option.some.injEq, Prod.mk.injEq] at e ⊢
      simp [e.1, e.2])
    have hs4 := hs3.setCache ((st2.cache.setActive (some (A, p))).setHead p A (toBTreeSet d.involved)) rfl
    have hnb2 : (st2.pub.nodes ++ [blank st2.pub.nodes.length A])[st2.pub.nodes.length]? =
        some (blank st2.pub.nodes.length A) := by simp
    have hbnd := hi2.bound
    have c4 : (({ (st2.setActive (some (A, p))) with
        pub := { nodes := st2.pub.nodes ++ [blank st2.pub.nodes.length A] } } : St R U).setHead p A
          (toBTreeSet d.involved)).cache =
        (st.cache.setActive (some (A, p))).putHead A p ⟨p, A, toBTreeSet d.involved, toBTreeSet d.involved⟩ := by
      simp only [St.setHead, Cache.setHead, St.setActive, hc2]
    have hpub4 : (({ (st2.setActive (some (A, p))) with
        pub := { nodes := st2.pub.nodes ++ [blank st2.pub.nodes.length A] } } : St R U).setHead p A
          (toBTreeSet d.involved)).pub.nodes = st2.pub.nodes ++ [blank st2.pub.nodes.length A] := rfl
    have hi4' : Inv True P.body src (fun j => D j ∨ j = st.pub.nodes.length) (({ (st2.setActive (some (A, p))) with
        pub := { nodes := st2.pub.nodes ++ [blank st2.pub.nodes.length A] } } : St R U).setHead p A
          (toBTreeSet d.involved)) := hi4
    have hs4' : Step True D st (fun j => D j ∨ j = st.pub.nodes.length) (({ (st2.setActive (some (A, p))) with
        pub := { nodes := st2.pub.nodes ++ [blank st2.pub.nodes.length A] } } : St R U).setHead p A
          (toBTreeSet d.involved)) parent [] := hs4
    generalize (({ (st2.setActive (some (A, p))) with
        pub := { nodes := st2.pub.nodes ++ [blank st2.pub.nodes.length A] } } : St R U).setHead p A
          (toBTreeSet d.involved)) = s4 at hg c4 hpub4 hi4' hs4'
    have hmemo4 : s4.cache.memo = st.cache.memo := by rw [c4]; rfl
    have htok4 : TOK rep P src lr ((A, p) :: stk) s4 := by
      refine htok.of hi hs4' (fun r p' b q k hn e => Or.inl ⟨fun h => hn (List.mem_cons_of_mem _ h), by
        rw [hmemo4] at e; exact e⟩) (fun r p' hr hme => ?_)
      rw [hmemo4] at hme
      rw [c4]
      simp only [Cache.putHead, Cache.setActive]
      split
      · simp
      · exact htok.headed r p' hr hme
    refine growthLoopT hT hh hD hd hnot hs hn hp.par hl (prev := st.cache.active) ?_ f (false, p) st.pub.nodes.length
      st2.pub.nodes.length s4 (s4.cache.memo A p) b q st' _ (.node A none []) (blank st2.pub.nodes.length A) ?_ ?_ ?_ rfl ?_
      hi4' hs4' htok4 ?_ ?_ hs2.len ?_ rfl (Or.inr rfl) ?_ ?_ ?_ (fun _ => rfl) (by simp) ?_ hg
    · intro r p' e
      obtain ⟨x, hx⟩ := hi.active r p' e
      rw [hx]; simp
    · refine ⟨?_, ?_, ?_, ?_⟩
      · rw [hmemo4]
        intro r p' b q k hn hm
        exact ho.memo r p' b q k (fun h => hn (List.mem_cons_of_mem _ h)) hm
      · rw [hmemo4, c4]
        intro r p' h hn hh
        have : ¬ (r = A ∧ p' = p) := fun h => hn (by simp [h.1, h.2])
        simp only [Cache.putHead] at hh
        rw [if_neg this] at hh
        exact ho.heads r p' h (fun h => hn (List.mem_cons_of_mem _ h)) hh
      · rw [c4]
        intro r p' h hh
        simp only [Cache.putHead] at hh
        split at hh
        · next heq =>
          obtain ⟨rfl, rfl⟩ := heq
          simp only [Option.some.injEq] at hh
          subst hh
          exact ⟨d, hd, fun x hx => (mem_toBTreeSet _ _).mp hx, fun x hx => hx⟩
        · exact ho.inv r p' h hh
      · intro x hx
        rcases List.mem_cons.mp hx with rfl | hx
        · simp [hd]
        · exact ho.stk x hx
    · rw [c4]; rfl
    · exact ⟨_, by rw [c4]; simp [Cache.putHead]; rfl, hmem⟩
    · exact Or.inl ⟨rfl, fun b q k hm => ho.memo A p b q k hnot (by rw [← hm, hmemo4])⟩
    · intro r p' hne
      rw [c4]
      simp only [Cache.putHead, Cache.setActive]
      split
      · simp
      · exact hne
    · intro h
      have := hbnd _ h; omega
    · rw [hpub4]; exact hnb2
    · rw [hpub4]; exact hu3
    · intro _ hne
      rw [hmemo4] at hne
      exact hclean hne
    · intro s k hm
      rw [hmemo4] at hm
      obtain ⟨t, hu, ht⟩ := htok.memo A p true s k hnot hm
      refine ⟨t, hs4'.unf hi (by simpa using (hi.memo A p true s k hm).1) hu, ?_⟩
      have := ht []
      rw [refOf_lr hd] at this
      generalize hE : Expr.varNameLR d.involved A = E at this
      generalize hX : [t] = X at this
      cases this <;> try (cases hE; done)
      · next hd' _ hg =>
        injection hE with _ hE
        subst hE
        rw [hd] at hd'; cases hd'
        cases hX
        exact hg
      · cases hX
    · exact Or.inr ⟨trivial, rfl, rfl, rfl⟩
  unfold varNameLRKernel shouldGrow at h
  cases hac : st.cache.active with
  | none =>
    simp only [hac, Out.bind_ok, if_true] at h
    rw [hac] at grow
    refine grow (fun hne => ?_) h
    rcases hrep with h | h | h
    · exact h
    · exact absurd hac h
    · exact absurd h hne
  | some act =>
    obtain ⟨A0, p0⟩ := act
    simp only [hac] at h
    cases hhd : st.cache.checkHead A p with
    | some hd' =>
      simp only [hhd, Out.bind_ok, Bool.false_eq_true, if_false, lrInner, hac] at h
      rw [Out.bind_eq_ok] at h
      obtain ⟨ine, h1, h2⟩ := h
      unfold Cache.ruleInEvalSet at h1
      have hin : ine = false := by
        cases hh0 : st.cache.heads A0 p0 with
        | none => rw [hh0] at h1; cases h1
        | some h0 =>
          rw [hh0] at h1
          simp only [Out.ok.injEq] at h1
          rw [← h1]
          obtain ⟨d0, g1, g2, g3⟩ := ho.inv A0 p0 h0 hh0
          have := hact A0 p0 hac d0 g1 A .lr
          cases hcon : h0.evalSet.contains A with
          | false => rfl
          | true => exact absurd (g2 A (g3 A (by simpa using hcon))) this
      subst hin
      simp only [Bool.false_eq_true, if_false] at h2
      cases hme : st.cache.memo A p with
      | none => exact absurd hme (ho.heads A p hd' hnot hhd)
      | some v =>
        obtain ⟨mb, mq, mk⟩ := v
        simp only [Cache.check, hme] at h2
        obtain ⟨nd, hnd, hcs⟩ := hp.kids
        obtain ⟨t, hu, ht⟩ := htok.memo A p mb mq mk hnot hme
        have hk := (hi.memo A p mb mq mk hme).1
        rw [refOf_lr hd] at ht
        simp only [connectIf_eq hnd, Out.bind_ok] at h2
        simp at h2
        obtain ⟨rfl, rfl, rfl⟩ := h2
        rw [hcs]
        by_cases hmem : mk ∈ cs
        · simp only [hmem, if_true]
          refine .ret hi htok (.lr_dup hd ?_ (ht []))
          obtain ⟨ndk, csk, e1, e2, e3⟩ := hp.unf.mem mk hmem
          have : [t] = [Tree.node ndk.rule ndk.spanOf csk] := hu.unique (.cons e1 e2 .nil)
          cases this
          exact e3
        · simp only [hmem, if_false]
          obtain ⟨hi4, hs4⟩ := hi.connected hp.par hnd hk
          exact ⟨D, [mk], [t], hi4, hs4, by simp [hk], hs4.unf hi (by simp [hk]) hu, htok.of_cache hi hs4 rfl, ht pre⟩
    | none =>
      simp only [hhd] at h
      rw [Out.bind_eq_ok] at h
      obtain ⟨⟨should, lastLr, s0⟩, h1, h2⟩ := h
      rw [Out.bind_eq_ok] at h1
      obtain ⟨inv, g1, g2⟩ := h1
      have hinv : inv = false := by
        unfold Cache.ruleInInvolvedSet at g1
        cases hh0 : st.cache.heads A0 p0 with
        | none => simp only [hh0] at g1; cases g1
        | some h0 =>
          simp only [hh0] at g1
          simp only [Out.ok.injEq] at g1
          rw [← g1]
          obtain ⟨d0, i1, i2, i3⟩ := ho.inv A0 p0 h0 hh0
          have := hact A0 p0 hac d0 i1 A .lr
          cases hcon : h0.involved.contains A with
          | false => rfl
          | true => exact absurd (i2 A (by simpa using hcon)) this
      subst hinv
      simp at g2
      obtain ⟨rfl, rfl, rfl⟩ := g2
      simp only [if_true] at h2
      rw [hac] at grow
      refine grow (fun hne => ?_) h2
      exact absurd hhd (htok.headed A p (by rw [hd]; simp) hne)

end HT
/-- An ordinary call, given what its body does. -/
theorem varNameT (hh : P.HooksOK src) {n : Nat} {r : R} (hr' : lr r = none) {stk : List (R × Nat)} {D : Nat → Prop}
    {parent p : Nat} {st : St R U} {b : Bool} {q : Nat} {st' : St R U} {cs pre} (ho : StOK P src lr stk st)
    (hp : Pre P src D st parent cs pre) (ht : TOK rep P src lr stk st)
    (hbody : ∀ st0 b q st' D parent, st0.cache = st.cache → Pre P src D st0 parent [] [] → TOK rep P src lr stk st0 →
      eval P src n (P.body r) parent p st0 = .ok (b, q, st') →
      TPost rep P src lr stk D st0 parent st' (fun _ ts => LRT rep P.body lr src [] (P.body r) p b q ts))
    (h : varNameKernel r (eval P src n (P.body r)) parent p st = .ok (b, q, st')) :
    TPost rep P src lr stk D st parent st' (fun _ ts => LRT rep P.body lr src pre (.varName r) p b q ts) := by
  have hnot : (r, p) ∉ stk := fun hx => ho.stk _ hx hr'
  have href : refOf lr r = .varName r := by simp [refOf, hr']
  have hi := hp.inv
  have hpos := hi.pos
  simp only [varNameKernel, Cache.check] at h
  split at h
  · next mb stop mk hm =>
    unfold memoizedBehaviour at h
    obtain ⟨t, hu, hlrt⟩ := ht.memo r p mb stop mk hnot hm
    rw [href] at hlrt
    have hk := (hi.memo r p mb stop mk hm).1
    obtain ⟨nd, hnd, _⟩ := hp.kids
    rw [connect_eq hnd (fun h => hp.par (h ▸ hk))] at h
    simp at h
    obtain ⟨rfl, rfl, rfl⟩ := h
    obtain ⟨hi4, hs4⟩ := hi.connected hp.par hnd hk
    exact ⟨D, [mk], [t], hi4, hs4, by simp [hk], hs4.unf hi (by simp [hk]) hu, ht.of_cache hi hs4 rfl, hlrt pre⟩
  · next hm =>
    unfold defaultBehaviour at h
    rcases reserve_cases st r with e | e
    · rw [e] at h; cases h
    rw [e] at h
    simp only [Out.bind_ok] at h
    have hi0 := hi.reserve r
    have hs0 := Step.reserve (parent := parent) hi r hp.lt
    have c0 : ({ st with pub := { nodes := st.pub.nodes ++ [blank st.pub.nodes.length r] } } : St R U).cache = st.cache := rfl
    generalize hst0 : ({ st with pub := { nodes := st.pub.nodes ++ [blank st.pub.nodes.length r] } } : St R U) = st0 at *
    have hnb : st0.pub.nodes[st.pub.nodes.length]? = some (blank st.pub.nodes.length r) := by subst hst0; simp
    have hlen0 : st0.pub.nodes.length = st.pub.nodes.length + 1 := by subst hst0; simp
    have hkD : ¬ D st.pub.nodes.length := fun h => by have := hi.bound _ h; omega
    rw [Out.bind_eq_ok] at h
    obtain ⟨⟨b', q', st2⟩, h2, h⟩ := h
    have hp0 : Pre P src D st0 st.pub.nodes.length [] [] := ⟨hi0, hkD, ⟨_, hnb, rfl⟩, .nil⟩
    have j := TPost.withRun hh (hbody st0 b' q' st2 D st.pub.nodes.length c0 hp0 (ht.of_cache hi hs0 c0) h2) hp0 h2
    obtain ⟨D2, ks, ts, hi2, hs2, hk2, hu2, ht2, hspec, hrun⟩ := j
    have hnd2 := hs2.par _ hnb
    simp only [blank, List.nil_append] at hnd2
    dsimp only at h
    rw [updateEntry_eq (st := st2.createCacheEntry r b' p q' st.pub.nodes.length) hnd2 b' p q'] at h
    simp only [Out.bind_ok] at h
    have hck2 : ¬ D2 st.pub.nodes.length := fun h => by
      rcases hs2.fresh _ h with h | h
      · exact hkD h
      · omega
    have hs2' : Step True D st D2 st2 parent [] := Step.outer hs0 hs2 (Nat.le_refl _) hp.par hp.lt
    obtain ⟨hi3, hu3, hst3⟩ := hi2.finish hck2 (by omega) hnd2 hu2 b' p q'
    have hs3 := hs2'.finish (nd := ⟨st.pub.nodes.length, r, 0, 0, false, ks⟩) hp.inv.bound (Nat.le_refl _) hp.lt b' p q'
    have hi4 := Inv.insert (r := r) (p := p) (b := b') (q := q') hi3 (Or.inr rfl) hu3 (Or.inl ⟨ts, hrun, rfl⟩)
    have hs4 := Step.insert (r := r) (p := p) (b := b') (q := q') (k := st.pub.nodes.length) hs3 (Or.inl trivial)
    have hl4 := Nat.lt_of_lt_of_le hp.lt hs4.len
    obtain ⟨ndp, hndp⟩ := exists_getElem? hl4
    have hp4 : ¬ (D2 parent ∨ parent = st.pub.nodes.length) := by
      have := hp.lt
      rintro (h | h)
      · rcases hs2'.fresh _ h with h | h
        · exact hp.par h
        · omega
      · omega
    obtain ⟨hi5, hs5⟩ := hi4.connected hp4 hndp (Or.inr rfl)
    have hcc : (st2.createCacheEntry r b' p q' st.pub.nodes.length).updated st.pub.nodes.length
        ⟨st.pub.nodes.length, r, 0, 0, false, ks⟩ b' p q' =
        (st2.updated st.pub.nodes.length ⟨st.pub.nodes.length, r, 0, 0, false, ks⟩ b' p q').createCacheEntry r b' p q'
          st.pub.nodes.length := rfl
    rw [hcc, connect_eq hndp (by have := hp.lt; omega)] at h
    simp at h
    obtain ⟨rfl, rfl, rfl⟩ := h
    have hu5 := hs5.unf hi4 (ks := [st.pub.nodes.length]) (by simp) hu3
    have hlrt : ∀ pre, LRT rep P.body lr src pre (.varName r) p b' q' [Tree.mk r p b' q' ts] := fun pre => .ref hspec
    refine ⟨_, _, _, hi5, hs4.trans hs5, by simp, hu5, ?_, hlrt pre⟩
    refine ht2.ofU hi2 (fun k t hk hu => hs5.unf hi4 (by simpa using Or.inl hk) (hst3 _ _ (by simpa using hk) hu)) ?_ ?_
    · intro r' p' b q k hn hmm
      simp only [St.connected, St.createCacheEntry, St.updated, Cache.insert] at hmm
      by_cases heq : r' = r ∧ p' = p
      · rw [if_pos heq] at hmm
        obtain ⟨rfl, rfl⟩ := heq
        obtain ⟨rfl, rfl, rfl⟩ : b' = b ∧ q' = q ∧ st.pub.nodes.length = k := by simpa using hmm
        exact Or.inr ⟨_, hu5, fun pre => by rw [href]; exact hlrt pre⟩
      · rw [if_neg heq] at hmm
        exact Or.inl ⟨hn, hmm⟩
    · intro r' p' hr0 hme
      have hne : ¬ (r' = r ∧ p' = p) := fun h => hr0 (by rw [h.1]; exact hr')
      refine ht2.headed r' p' hr0 fun hm0 => hme ?_
      simp only [St.connected, St.createCacheEntry, St.updated, Cache.insert]
      rw [if_neg hne]; exact hm0

/-- The trees of the whole parser. -/
theorem tclaim_all (hh : P.HooksOK src) (hD : DirectLR P.body lr) : ∀ n, TClaim rep P src lr n := by
  intro n
  induction n using Nat.strongRecOn with
  | _ n ih =>
  cases n with
  | zero => intro e stk D parent p st b q st' cs pre _ _ _ _ _ _ _ h; cases h
  | succ n =>
    have hT : ∀ k, k ≤ n → TClaim rep P src lr k := fun k hk => ih k (by omega)
    have hn : TClaim rep P src lr n := hT n (Nat.le_refl _)
    have hC : Claim P src lr n := claim_all hD n
    have loop : ∀ (e : Expr R), e.RefsOK lr → ∀ f stk D parent p st b q st' cs pre, StOK P src lr stk st →
        Safe P lr stk e p → ActOK P lr st.cache.active e → (rep ∨ st.cache.active ≠ none) →
        Pre P src D st parent cs pre → TOK rep P src lr stk st →
        repeatLoop (eval P src n e) parent f p st = .ok (b, q, st') →
        b = true ∧
        TPost rep P src lr stk D st parent st' (fun _ ts => LRT rep P.body lr src pre (.zeroOrMore e) p true q ts) := by
      intro e he f
      induction f with
      | zero => intro stk D parent p st b q st' cs pre _ _ _ _ _ _ h; cases h
      | succ f ihf =>
        intro stk D parent p st b q st' cs pre ho hs ha hr hp ht h
        unfold repeatLoop at h
        rw [Out.bind_eq_ok] at h
        obtain ⟨⟨b1, q1, st1⟩, h1, h2⟩ := h
        obtain ⟨g1, g2, g3⟩ := hC e stk parent p st b1 q1 st1 he ho hs ha h1
        have j := hn e stk D parent p st b1 q1 st1 cs pre he ho hs ha hr hp ht h1
        dsimp only at h2
        cases b1 with
        | false =>
          simp at h2
          obtain ⟨rfl, rfl, rfl⟩ := h2
          exact ⟨rfl, j.mono fun _ _ h => .star_stop h⟩
        | true =>
          simp only [Bool.not_true, Bool.false_eq_true, if_false] at h2
          have step : ∀ D1 cs1 pre1, Pre P src D1 st1 parent cs1 pre1 → TOK rep P src lr stk st1 → _ := fun D1 cs1 pre1 hp1 ht1 =>
            ihf stk D1 parent q1 st1 b q st' cs1 pre1 g2
              (hs.lift (by have := g1.bounds.2; omega) (fun _ _ h => h)) (by rw [g3.active]; exact ha)
              (by rw [g3.active]; exact hr) hp1 ht1 h2
          refine ⟨?_, j.bind hp fun D1 ks ts hts hp1 ht1 _ => ?_⟩
          · obtain ⟨D1, ks, ts, e1, e2, e3, e4, e5, _⟩ := j
            exact (step D1 _ _ (hp.next e1 e2 e4) e5).1
          · exact (step D1 _ _ hp1 ht1).2.mono fun _ us hus => .star_step hts hus
    intro e stk D parent p st b q st' cs pre he ho hs ha hr hp ht h
    cases e with
    | andPredicate e =>
      simp only [eval, andPredicateKernel] at h
      rw [Out.bind_eq_ok] at h
      obtain ⟨⟨b1, q1, st1⟩, h1, h2⟩ := h
      have j := hn e stk D parent p st b1 q1 st1 cs pre he ho (hs.lift (Nat.le_refl _) fun _ _ h => .andP h)
        (ha.lift fun _ h => .andP h) hr hp ht h1
      dsimp only at h2
      cases b1 <;> simp at h2 <;> obtain ⟨rfl, rfl, rfl⟩ := h2
      · exact j.mono fun _ _ h => .and_fail h
      · exact j.mono fun _ _ h => .and_ok h
    | notPredicate e =>
      simp only [eval, notPredicateKernel] at h
      rw [Out.bind_eq_ok] at h
      obtain ⟨⟨b1, q1, st1⟩, h1, h2⟩ := h
      have j := hn e stk D parent p st b1 q1 st1 cs pre he ho (hs.lift (Nat.le_refl _) fun _ _ h => .notP h)
        (ha.lift fun _ h => .notP h) hr hp ht h1
      dsimp only at h2
      cases b1 <;> simp at h2 <;> obtain ⟨rfl, rfl, rfl⟩ := h2
      · exact j.mono fun _ _ h => .not_ok h
      · exact j.mono fun _ _ h => .not_fail h
    | oneOrMore e =>
      simp only [eval, oneOrMoreKernel] at h
      rw [Out.bind_eq_ok] at h
      obtain ⟨⟨b1, q1, st1⟩, h1, h2⟩ := h
      have hs' : Safe P lr stk e p := hs.lift (Nat.le_refl _) fun _ _ h => .plus h
      have ha' : ActOK P lr st.cache.active e := ha.lift fun _ h => .plus h
      obtain ⟨g1, g2, g3⟩ := hC e stk parent p st b1 q1 st1 he ho hs' ha' h1
      have j := hn e stk D parent p st b1 q1 st1 cs pre he ho hs' ha' hr hp ht h1
      dsimp only at h2
      cases b1 with
      | false =>
        simp at h2
        obtain ⟨rfl, rfl, rfl⟩ := h2
        exact j.mono fun _ _ h => .plus_fail h
      | true =>
        simp only [Bool.not_true, Bool.false_eq_true, if_false] at h2
        refine j.bind hp fun D1 ks ts hts hp1 ht1 _ => ?_
        obtain ⟨rfl, i1⟩ := loop e he _ stk D1 parent q1 st1 b q st' _ _ g2
          (hs'.lift (by have := g1.bounds.2; omega) (fun _ _ h => h)) (by rw [g3.active]; exact ha')
          (by rw [g3.active]; exact hr) hp1 ht1 h2
        exact i1.mono fun _ us hus => .plus_ok hts hus
    | zeroOrMore e =>
      obtain ⟨rfl, i1⟩ := loop e he _ stk D parent p st b q st' cs pre ho (hs.lift (Nat.le_refl _) fun _ _ h => .star h)
        (ha.lift fun _ h => .star h) hr hp ht h
      exact i1
    | optional e =>
      simp only [eval, optionalKernel] at h
      rw [Out.bind_eq_ok] at h
      obtain ⟨⟨b1, q1, st1⟩, h1, h2⟩ := h
      have j := hn e stk D parent p st b1 q1 st1 cs pre he ho (hs.lift (Nat.le_refl _) fun _ _ h => .opt h)
        (ha.lift fun _ h => .opt h) hr hp ht h1
      dsimp only at h2
      cases b1 <;> simp at h2 <;> obtain ⟨rfl, rfl, rfl⟩ := h2
      · exact j.mono fun _ _ h => .opt_none h
      · exact j.mono fun _ _ h => .opt_some h
    | subexpression e =>
      simp only [eval, subexpressionKernel] at h
      rw [Out.bind_eq_ok] at h
      obtain ⟨⟨b1, q1, st1⟩, h1, h2⟩ := h
      have j := hn e stk D parent p st b1 q1 st1 cs pre he ho (hs.lift (Nat.le_refl _) fun _ _ h => .sub h)
        (ha.lift fun _ h => .sub h) hr hp ht h1
      dsimp only at h2
      cases b1 <;> simp at h2 <;> obtain ⟨rfl, rfl, rfl⟩ := h2
      · exact j.mono fun _ _ h => .sub_fail h
      · exact j.mono fun _ _ h => .sub_ok h
    | orderedChoice a c =>
      simp only [eval, orderedChoiceKernel] at h
      rw [Out.bind_eq_ok] at h
      obtain ⟨⟨b1, q1, st1⟩, h1, h2⟩ := h
      have hs1 : Safe P lr stk a p := hs.lift (Nat.le_refl _) fun _ _ h => .left h
      have ha1 : ActOK P lr st.cache.active a := ha.lift fun _ h => .left h
      obtain ⟨g1, g2, g3⟩ := hC a stk parent p st b1 q1 st1 he.1 ho hs1 ha1 h1
      have j := hn a stk D parent p st b1 q1 st1 cs pre he.1 ho hs1 ha1 hr hp ht h1
      dsimp only at h2
      cases b1 with
      | true =>
        simp at h2
        obtain ⟨rfl, rfl, rfl⟩ := h2
        exact j.mono fun _ _ h => .choice_left h
      | false =>
        simp only [Bool.false_eq_true, if_false] at h2
        rw [Out.bind_eq_ok] at h2
        obtain ⟨⟨b2, q2, st2⟩, h3, h4⟩ := h2
        refine j.bind hp fun D1 ks ts hts hp1 ht1 _ => ?_
        have i1 := hn c stk D1 parent p st1 b2 q2 st2 _ _ he.2 g2 (hs.lift (Nat.le_refl _) fun _ _ h => .right h)
          (by rw [g3.active]; exact ha.lift fun _ h => .right h) (by rw [g3.active]; exact hr) hp1 ht1 h3
        dsimp only at h4
        cases b2 <;> simp at h4 <;> obtain ⟨rfl, rfl, rfl⟩ := h4
        · exact i1.mono fun _ us hus => .choice_fail hts hus
        · exact i1.mono fun _ us hus => .choice_right hts hus
    | sequence a c =>
      simp only [eval, sequenceKernel] at h
      rw [Out.bind_eq_ok] at h
      obtain ⟨⟨b1, q1, st1⟩, h1, h2⟩ := h
      have hs1 : Safe P lr stk a p := hs.lift (Nat.le_refl _) fun _ _ h => .fst h
      have ha1 : ActOK P lr st.cache.active a := ha.lift fun _ h => .fst h
      obtain ⟨g1, g2, g3⟩ := hC a stk parent p st b1 q1 st1 he.1 ho hs1 ha1 h1
      have j := hn a stk D parent p st b1 q1 st1 cs pre he.1 ho hs1 ha1 hr hp ht h1
      dsimp only at h2
      cases b1 with
      | false =>
        simp at h2
        obtain ⟨rfl, rfl, rfl⟩ := h2
        exact j.mono fun _ _ h => .seq_fail1 h
      | true =>
        simp only [if_true] at h2
        rw [Out.bind_eq_ok] at h2
        obtain ⟨⟨b2, q2, st2⟩, h3, h4⟩ := h2
        refine j.bind hp fun D1 ks ts hts hp1 ht1 _ => ?_
        have i1 := hn c stk D1 parent q1 st1 b2 q2 st2 _ _ he.2 g2
          (hs.lift (by have := g1.bounds.2; omega) fun hq _ h => .snd (g1.mayBeEmpty rfl hq) h)
          (by rw [g3.active]; exact ha.lift fun _ h => .snd h) (by rw [g3.active]; exact hr) hp1 ht1 h3
        dsimp only at h4
        cases b2 <;> simp at h4 <;> obtain ⟨rfl, rfl, rfl⟩ := h4
        · exact i1.mono fun _ us hus => .seq_fail2 hts hus
        · exact i1.mono fun _ us hus => .seq_ok hts hus
    | terminal c =>
      simp only [eval, liftPure, Out.ok.injEq, Prod.mk.injEq] at h
      obtain ⟨rfl, rfl, rfl⟩ := h
      exact .ret hp.inv ht (.terminal (peg_terminal _ _ c p))
    | stringTerminal d =>
      simp only [eval, liftPure, Out.ok.injEq, Prod.mk.injEq] at h
      obtain ⟨rfl, rfl, rfl⟩ := h
      exact .ret hp.inv ht (.string (peg_string _ _ d p))
    | matchRange lo hi =>
      simp only [eval, liftPure, Out.ok.injEq, Prod.mk.injEq] at h
      obtain ⟨rfl, rfl, rfl⟩ := h
      exact .ret hp.inv ht (.range (peg_range _ _ lo hi p))
    | varName r =>
      have hr' : lr r = none := he
      refine varNameT hh hr' ho hp ht (fun st0 b' q' st2 D' parent' c0 hp0 ht0 h2 => ?_) h
      exact hn (P.body r) stk D' parent' p st0 b' q' st2 [] [] (hD.refs r hr') (ho.of_cache c0)
        (fun x hx => ⟨(hs x hx).1, fun h3 h4 => (hs x hx).2 h3 (.step .ref (by rw [iterBody_none hr']; exact h4))⟩)
        (by rw [c0]; exact ha.lift fun _ h => .ref h) (by rw [c0]; exact hr) hp0 ht0 h2
    | varNameLR inv r =>
      obtain ⟨d, hd, rfl⟩ := he
      exact lrT hT hh hD hd hs (by omega) n ho ha (hr.imp id Or.inl) hp ht h
    | inlined r =>
      have hr' : lr r = none := he
      have j := hn (P.body r) stk D parent p st b q st' cs pre (hD.refs r hr') ho
          (fun x hx => ⟨(hs x hx).1, fun h3 h4 => (hs x hx).2 h3 (.step .inl (by rw [iterBody_none hr']; exact h4))⟩)
          (ha.lift fun _ h => .inl h) hr hp ht h
      exact j.mono fun _ _ h => .inl h
    | hooked name e => exact he.elim

end
end PP
