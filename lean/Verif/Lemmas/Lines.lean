import Verif.Lemmas.Ops
import Verif.Lemmas.TreeFacts
import Verif.Lemmas.Gen.ClearConv
import Verif.Model.Parsers
import Verif.Spec.Lines
import Verif.Props.Store

/-! # Example 11, evaluated -/
set_option linter.unusedSectionVars false
namespace PP

abbrev St11 := St Ex11 (List (List UInt8))

/-- `(alphabet_lower / ' ')` -/
def charE : Expr Ex11 := .subexpression (.orderedChoice (.inlined .r_alphabet_lower) (.terminal 32))
/-- `((alphabet_lower / ' ')+, '\n')` -/
def lineE : Expr Ex11 := .subexpression (.sequence (.oneOrMore charE) (.terminal 10))

theorem body_line : Ex11.body .r_unique_line_matcher = .hooked "unique_line_cache" lineE := rfl

section
variable {src : Source} (hs : src.bytes.length < 2 ^ 32)
include hs

theorem charE_eval (n k p : Nat) (st : St11) : eval ex11Parser src (n + 4) charE k p st =
    if ∃ c, src.bytes[p]? = some c ∧ LineByte c then .ok (true, p + 1, st) else .ok (false, p, st) := by
  simp only [charE, eval, subexpressionKernel, orderedChoiceKernel, ex11Parser, Ex11.body, liftPure, matchRangeKernel,
    terminalKernel, C42_get_char src _ hs]
  cases h : src.bytes[p]? with
  | none => simp
  | some c =>
    by_cases h1 : 97 ≤ c.toNat ∧ c.toNat ≤ 122
    · have : LineByte c := Or.inl h1
      simp [h1, this]
    · by_cases h2 : c = 32
      · have : LineByte c := Or.inr h2
        subst h2; simp [this]
      · have : ¬ LineByte c := by rintro (h | h) <;> contradiction
        simp [h1, h2, this]

theorem repeat_char (n k : Nat) (st : St11) : ∀ (w rest : List UInt8) (p m : Nat), src.bytes.drop p = w ++ rest →
    (∀ c ∈ w, LineByte c) → (∀ c, rest.head? = some c → ¬ LineByte c) → w.length < m →
    repeatLoop (eval ex11Parser src (n + 4) charE) k m p st = .ok (true, p + w.length, st) := by
  intro w
  induction w with
  | nil =>
    intro rest p m h1 _ h3 hm
    obtain ⟨m, rfl⟩ : ∃ m', m = m' + 1 := ⟨m - 1, by simp at hm; omega⟩
    have hp : src.bytes[p]? = rest.head? := by
      have : (src.bytes.drop p).head? = rest.head? := by rw [h1]; rfl
      rw [← this, List.head?_drop]
    rw [repeatLoop, charE_eval hs, if_neg (by rw [hp]; rintro ⟨c, h, h'⟩; exact h3 c h h')]
    simp
  | cons c w ih =>
    intro rest p m h1 h2 h3 hm
    obtain ⟨m, rfl⟩ : ∃ m', m = m' + 1 := ⟨m - 1, by simp at hm; omega⟩
    have hp : src.bytes[p]? = some c := by
      have : (src.bytes.drop p).head? = some c := by rw [h1]; rfl
      rw [← this, List.head?_drop]
    rw [repeatLoop, charE_eval hs, if_pos ⟨c, hp, h2 c (by simp)⟩]
    simp only [Out.bind_ok, Bool.not_true, Bool.false_eq_true, if_false]
    rw [ih rest (p + 1) m (by rw [← List.drop_drop, h1]; rfl) (fun c hc => h2 c (by simp [hc])) h3 (by simp at hm; omega)]
    simp; omega

/-- The wrapped closure at a position where the longest word is `w`. -/
theorem lineE_eval {w rest : List UInt8} {p : Nat} (h1 : src.bytes.drop p = w ++ rest)
    (h2 : ∀ c ∈ w, LineByte c) (h3 : ∀ c, rest.head? = some c → ¬ LineByte c) (n : Nat) (hn : w.length ≤ n) (k : Nat)
    (st : St11) : eval ex11Parser src (n + 7) lineE k p st =
    if w ≠ [] ∧ rest.head? = some 10 then .ok (true, p + w.length + 1, st) else .ok (false, p, st) := by
  have hone : eval ex11Parser src (n + 5) (.oneOrMore charE) k p st =
      if w ≠ [] then .ok (true, p + w.length, st) else .ok (false, p, st) := by
    rw [eval, oneOrMoreKernel, charE_eval hs]
    cases w with
    | nil =>
      have hp : src.bytes[p]? = rest.head? := by
        have : (src.bytes.drop p).head? = rest.head? := by rw [h1]; rfl
        rw [← this, List.head?_drop]
      rw [if_neg (by rw [hp]; rintro ⟨c, h, h'⟩; exact h3 c h h')]
      simp
    | cons c w =>
      have hp : src.bytes[p]? = some c := by
        have : (src.bytes.drop p).head? = some c := by rw [h1]; rfl
        rw [← this, List.head?_drop]
      rw [if_pos ⟨c, hp, h2 c (by simp)⟩]
      simp only [Out.bind_ok, Bool.not_true, Bool.false_eq_true, if_false]
      rw [repeat_char hs n k st w rest (p + 1) _ (by rw [← List.drop_drop, h1]; rfl) (fun c hc => h2 c (by simp [hc])) h3
        (by simp at hn; omega)]
      simp; omega
  have hq : src.bytes[p + w.length]? = rest.head? := by
    have : (src.bytes.drop (p + w.length)).head? = rest.head? := by
      rw [← List.drop_drop, h1]; simp
    rw [← this, List.head?_drop]
  rw [lineE, eval, subexpressionKernel, eval, sequenceKernel, hone]
  by_cases hw : w = []
  · simp [hw]
  · rw [if_pos hw]
    simp only [Out.bind_ok, if_true, eval, liftPure, terminalKernel, C42_get_char src _ hs, hq]
    by_cases hr : rest.head? = some 10 <;> simp [hr, hw]

end

/-! ## Words and lines -/

theorem not_lineByte_nl : ¬ LineByte 10 := by decide

/-- Every list splits at the end of its longest word. -/
theorem word_split (l : List UInt8) : ∃ w rest, l = w ++ rest ∧ (∀ c ∈ w, LineByte c) ∧
    ∀ c, rest.head? = some c → ¬ LineByte c := by
  refine ⟨l.takeWhile (fun c => decide (LineByte c)), l.dropWhile (fun c => decide (LineByte c)),
    (List.takeWhile_append_dropWhile).symm, ?_, ?_⟩
  · intro c hc; simpa using List.all_eq_true.mp (List.all_takeWhile (p := fun c => decide (LineByte c)) (l := l)) c hc
  · intro c hc
    have := List.head?_dropWhile_not (fun c => decide (LineByte c)) l
    rw [hc] at this
    simpa using this

theorem word_unique {w w' rest rest' : List UInt8} (h : w ++ rest = w' ++ rest') (h1 : ∀ c ∈ w, LineByte c)
    (h1' : ∀ c ∈ w', LineByte c) (h2 : ∀ c, rest.head? = some c → ¬ LineByte c)
    (h2' : ∀ c, rest'.head? = some c → ¬ LineByte c) : w = w' ∧ rest = rest' := by
  induction w generalizing w' with
  | nil =>
    cases w' with
    | nil => exact ⟨rfl, h⟩
    | cons c w' =>
      simp at h; subst h
      exact absurd (h1' c (by simp)) (h2 c rfl)
  | cons c w ih =>
    cases w' with
    | nil =>
      simp at h; subst h
      exact absurd (h1 c (by simp)) (h2' c rfl)
    | cons c' w' =>
      simp at h
      obtain ⟨rfl, h⟩ := h
      obtain ⟨rfl, rfl⟩ := ih h (fun c hc => h1 c (by simp [hc])) (fun c hc => h1' c (by simp [hc]))
      exact ⟨rfl, rfl⟩

/-- Either a line starts here, or none does. -/
theorem line_cases {w rest : List UInt8} (h1 : ∀ c ∈ w, LineByte c) (h2 : ∀ c, rest.head? = some c → ¬ LineByte c) :
    (w ≠ [] ∧ rest.head? = some 10 ∧ ∃ rest', w ++ rest = (w ++ [10]) ++ rest' ∧ IsLine (w ++ [10])) ∨
    (¬ (w ≠ [] ∧ rest.head? = some 10) ∧ ∀ l rest', IsLine l → w ++ rest ≠ l ++ rest') := by
  by_cases h : w ≠ [] ∧ rest.head? = some 10
  · left
    refine ⟨h.1, h.2, ?_⟩
    cases rest with
    | nil => simp at h
    | cons c rest =>
      simp at h
      obtain ⟨hw, rfl⟩ := h
      exact ⟨rest, by simp, w, hw, h1, rfl⟩
  · right
    refine ⟨h, ?_⟩
    rintro l rest' ⟨w', hw', hb', rfl⟩ he
    rw [List.append_assoc] at he
    obtain ⟨rfl, rfl⟩ := word_unique he h1 hb' h2 (by
      intro c hc
      have : c = 10 := by simpa using hc.symm
      subst this; exact not_lineByte_nl)
    exact h ⟨hw', by simp⟩

theorem line_unique {l l' rest rest' : List UInt8} (hl : IsLine l) (hl' : IsLine l') (h : l ++ rest = l' ++ rest') :
    l = l' ∧ rest = rest' := by
  obtain ⟨w, hw, hb, rfl⟩ := hl
  obtain ⟨w', hw', hb', rfl⟩ := hl'
  rw [List.append_assoc, List.append_assoc] at h
  have nl : ∀ (r : List UInt8) (c : UInt8), ([10] ++ r).head? = some c → ¬ LineByte c := by
    intro r c hc
    have : c = 10 := by simpa using hc.symm
    subst this; exact not_lineByte_nl
  obtain ⟨rfl, h⟩ := word_unique h hb hb' (nl _) (nl _)
  simp at h
  exact ⟨rfl, h⟩

/-! ## UTF-8 -/

theorem utf8_char (c : Char) : (∃ b, String.utf8EncodeChar c = [b] ∧ b.toNat < 128) ∨
    (∃ b bs, String.utf8EncodeChar c = b :: bs ∧ 192 ≤ b.toNat ∧ ∀ x ∈ bs, 128 ≤ x.toNat) := by
  have hv : c.val.toNat < 1114112 := by
    have := c.valid; rcases this with h | h <;> simp at h ⊢ <;> omega
  have hv' : c.toNat = c.val.toNat := rfl
  unfold String.utf8EncodeChar
  simp only
  split
  · left; refine ⟨_, rfl, ?_⟩; simp; omega
  · split
    · right; refine ⟨_, _, rfl, ?_, ?_⟩
      · simp; omega
      · intro x hx; simp at hx; subst hx; simp; omega
    · split
      · right; refine ⟨_, _, rfl, ?_, ?_⟩
        · simp; omega
        · intro x hx; simp at hx; rcases hx with rfl | rfl <;> simp <;> omega
      · right; refine ⟨_, _, rfl, ?_, ?_⟩
        · simp; omega
        · intro x hx; simp at hx; rcases hx with rfl | rfl | rfl <;> simp <;> omega

/-- The byte after an ASCII byte of a text starts a character. -/
theorem text_after_ascii (cs : List Char) : ∀ (i : Nat) (x : UInt8), (cs.flatMap String.utf8EncodeChar)[i]? = some x →
    x.toNat < 128 → ∀ y, (cs.flatMap String.utf8EncodeChar)[i + 1]? = some y → y.toNat / 64 ≠ 2 := by
  have first : ∀ (cs : List Char) y, (cs.flatMap String.utf8EncodeChar)[0]? = some y → y.toNat / 64 ≠ 2 := by
    intro cs y h
    cases cs with
    | nil => simp at h
    | cons c cs =>
      rw [List.flatMap_cons] at h
      rcases utf8_char c with ⟨b, hb, hb'⟩ | ⟨b, bs, hb, hb', _⟩ <;> rw [hb] at h <;> simp at h <;> subst h
      · omega
      · have := b.toNat_lt; omega
  induction cs with
  | nil => intro i x h; simp at h
  | cons c cs ih =>
    intro i x h hx y hy
    rw [List.flatMap_cons] at h hy
    rcases utf8_char c with ⟨b, hb, hb'⟩ | ⟨b, bs, hb, hb', hbs⟩
    · rw [hb] at h hy
      cases i with
      | zero => exact first cs y (by simpa using hy)
      | succ i => exact ih i x (by simpa using h) hx y (by simpa using hy)
    · rw [hb] at h hy
      rcases Nat.lt_or_ge i (b :: bs).length with hi | hi
      · exfalso
        rw [List.getElem?_append_left hi] at h
        have hm := List.mem_of_getElem? h
        simp at hm
        rcases hm with rfl | hm
        · omega
        · have := hbs x hm; omega
      · rw [List.getElem?_append_right hi] at h
        rw [List.getElem?_append_right (by omega)] at hy
        exact ih _ x h hx y (by rw [show i - (b :: bs).length + 1 = i + 1 - (b :: bs).length by omega]; exact hy)

theorem boundary_after_ascii {src : Source} (ht : src.IsText) {i : Nat} {x : UInt8} (h : src.bytes[i]? = some x)
    (hx : x.toNat < 128) : Source.isCharBoundary src.bytes (i + 1) = true := by
  obtain ⟨cs, hcs⟩ := ht
  have hi := lt_of_getElem?_some h
  unfold Source.isCharBoundary
  rcases Nat.lt_or_ge (i + 1) src.bytes.length with h1 | h1
  · have := text_after_ascii cs i x (by rw [← hcs]; exact h) hx src.bytes[i + 1] (by
      rw [← hcs]; exact List.getElem?_eq_getElem h1)
    rw [List.getElem?_eq_getElem h1]
    simp [this]
  · have : i + 1 = src.bytes.length := by omega
    simp [this]

theorem boundary_at_ascii {src : Source} {i : Nat} {x : UInt8} (h : src.bytes[i]? = some x)
    (hx : x.toNat < 128) : Source.isCharBoundary src.bytes i = true := by
  unfold Source.isCharBoundary
  have : x.toNat / 64 ≠ 2 := by omega
  rw [h]; simp [this]

theorem LineByte.ascii {c : UInt8} (h : LineByte c) : c.toNat < 128 := by
  rcases h with h | rfl
  · omega
  · decide

/-- The hook can slice out every line. -/
theorem getString_line {src : Source} (hs : src.bytes.length < 2 ^ 32) (ht : src.IsText) {l rest : List UInt8} {p : Nat}
    (hl : IsLine l) (h : src.bytes.drop p = l ++ rest) : src.getString p (p + l.length) = .ok (some l) := by
  obtain ⟨w, hw, hb, rfl⟩ := hl
  have hlen : src.bytes.length - p = (w ++ [10]).length + rest.length := by
    have := congrArg List.length h; simp at this ⊢; omega
  have hlast : src.bytes[p + w.length]? = some 10 := by
    have : (src.bytes.drop (p + w.length)).head? = some 10 := by rw [← List.drop_drop, h]; simp
    rw [← this, List.head?_drop]
  have hfirst : ∃ c, src.bytes[p]? = some c ∧ LineByte c := by
    cases w with
    | nil => exact absurd rfl hw
    | cons c w =>
      refine ⟨c, ?_, hb c (by simp)⟩
      have : (src.bytes.drop p).head? = some c := by rw [h]; rfl
      rw [← this, List.head?_drop]
  obtain ⟨c, hc, hcb⟩ := hfirst
  simp only [List.length_append, List.length_cons, List.length_nil] at hlen ⊢
  refine (C42_get_string_some src hs _ _ _).mpr ⟨by omega, by omega, boundary_at_ascii hc hcb.ascii,
    by rw [← Nat.add_assoc]; exact boundary_after_ascii ht hlast (by decide), ?_⟩
  unfold Source.slice
  rw [h, show p + (w.length + (0 + 1)) - p = (w ++ [10]).length by simp]
  exact List.take_left.symm

/-! ## One call of the rule, and the loop -/

/-- The state after a call of the rule at `p` with outcome `(b, q)` and new user state `u`. -/
def St11.after (st : St11) (parent : Nat) (nd : Node Ex11) (p : Nat) (b : Bool) (q : Nat) (u : List (List UInt8)) : St11 :=
  { cache := st.cache.insert .r_unique_line_matcher b p q st.pub.nodes.length,
    pub := Publisher.mk <| (st.pub.nodes ++ [Node.mk st.pub.nodes.length Ex11.r_unique_line_matcher p q b []]).set parent <|
      Node.mk nd.index nd.rule nd.start nd.stop nd.result (nd.children ++ [st.pub.nodes.length]),
    user := u }

/-- What the hooked body returns. -/
theorem hooked_eval {src : Source} (hs : src.bytes.length < 2 ^ 32) (ht : src.IsText) {p : Nat} (st : St11) :
    (∃ l rest, IsLine l ∧ src.bytes.drop p = l ++ rest ∧ l ∉ st.user ∧ ∀ n k, src.bytes.length ≤ n → ∀ c pb,
      eval ex11Parser src (n + 8) (Ex11.body .r_unique_line_matcher) k p ⟨c, pb, st.user⟩ =
        .ok (true, p + l.length, ⟨c, pb, l :: st.user⟩)) ∨
    ((∀ l rest, IsLine l → src.bytes.drop p = l ++ rest → l ∈ st.user) ∧ ∀ n k, src.bytes.length ≤ n → ∀ c pb,
      eval ex11Parser src (n + 8) (Ex11.body .r_unique_line_matcher) k p ⟨c, pb, st.user⟩ =
        .ok (false, p, ⟨c, pb, st.user⟩)) := by
  obtain ⟨w, rest, h1, h2, h3⟩ := word_split (src.bytes.drop p)
  have hwl : w.length ≤ src.bytes.length := by
    have := congrArg List.length h1; simp at this; omega
  have hrun : ∀ n k, src.bytes.length ≤ n → ∀ c pb,
      eval ex11Parser src (n + 8) (Ex11.body .r_unique_line_matcher) k p ⟨c, pb, st.user⟩ =
      (if w ≠ [] ∧ rest.head? = some 10 then (.ok (true, p + w.length + 1, ⟨c, pb, st.user⟩) : Out (Bool × Nat × St11))
        else .ok (false, p, ⟨c, pb, st.user⟩)).bind fun r =>
      runHook (eval ex11Parser src (n + 7) lineE) k
        (uniqueLineAfter src p r.2.2.user r.1 r.2.1) r.2.2 := by
    intro n k hn c pb
    rw [body_line, eval]
    simp only
    have hh : ex11Parser.hook "unique_line_cache" src p st.user = uniqueLineCache src p st.user := rfl
    rw [hh, uniqueLineCache, runHook]
    simp only
    rw [lineE_eval hs h1 h2 h3 n (by omega)]
  rcases line_cases h2 h3 with ⟨hw, hr, rest', he, hl⟩ | ⟨hno, hnone⟩
  · have hd : src.bytes.drop p = (w ++ [10]) ++ rest' := h1.trans he
    have hg := getString_line hs ht hl hd
    have hlen : p + (w ++ [10]).length = p + w.length + 1 := by simp; omega
    rw [hlen] at hg
    by_cases hm : w ++ [10] ∈ st.user
    · right
      refine ⟨fun l r hl' hr' => (line_unique hl hl' (hd.symm.trans hr')).1 ▸ hm, fun n k hn c pb => ?_⟩
      rw [hrun n k hn, if_pos ⟨hw, hr⟩]
      simp [Out.bind, hg, hm, runHook, uniqueLineAfter]
    · left
      refine ⟨w ++ [10], rest', hl, hd, hm, fun n k hn c pb => ?_⟩
      rw [hrun n k hn, if_pos ⟨hw, hr⟩, hlen]
      simp [Out.bind, hg, hm, runHook, uniqueLineAfter]
  · right
    refine ⟨fun l r hl' hr' => absurd (h1.symm.trans hr') (hnone l r hl'), fun n k hn c pb => ?_⟩
    rw [hrun n k hn, if_neg hno]
    simp [Out.bind, runHook, uniqueLineAfter]

theorem call_eval {src : Source} {p : Nat} {st : St11} {parent : Nat} {nd : Node Ex11}
    (hroom : st.pub.nodes.length < 4294967296) (hmemo : st.cache.memo .r_unique_line_matcher p = none)
    (hnd : st.pub.nodes[parent]? = some nd) {n : Nat} {b : Bool} {q : Nat} {u : List (List UInt8)}
    (h : ∀ k c pb, eval ex11Parser src n (Ex11.body .r_unique_line_matcher) k p ⟨c, pb, st.user⟩ = .ok (b, q, ⟨c, pb, u⟩)) :
    eval ex11Parser src (n + 1) (.varName .r_unique_line_matcher) parent p st = .ok (b, q, St11.after st parent nd p b q u) := by
  have hp := lt_of_getElem?_some hnd
  rw [eval, varNameKernel, Cache.check, hmemo]
  simp only [defaultBehaviour]
  have hres : st.reserve Ex11.r_unique_line_matcher = .ok (st.pub.nodes.length,
      { st with pub := { nodes := st.pub.nodes ++ [blank st.pub.nodes.length .r_unique_line_matcher] } }) := by
    unfold St.reserve Publisher.addNode blank
    rw [if_pos hroom]; rfl
  rw [hres]
  simp only [Out.bind_ok]
  have hb : ex11Parser.body = Ex11.body := rfl
  rw [hb, h]
  simp only [Out.bind_ok, St.createCacheEntry]
  rw [updateEntry_eq (nd := blank st.pub.nodes.length .r_unique_line_matcher) (by simp)]
  simp only [Out.bind_ok, St.updated]
  rw [connect_eq (nd := nd) (by
    simp only
    rw [List.getElem?_set_ne (by omega), List.getElem?_append_left hp]; exact hnd) (by omega)]
  simp only [Out.bind_ok, St.connected, St11.after, Out.ok.injEq, Prod.mk.injEq, true_and, St.mk.injEq, Publisher.mk.injEq,
    and_true]
  congr 1
  simp [blank]

/-- The nodes of the accepted lines. -/
def leafNodes (i p : Nat) : List (List UInt8) → List (Node Ex11)
  | [] => []
  | l :: ls => ⟨i, .r_unique_line_matcher, p, p + l.length, true, []⟩ :: leafNodes (i + 1) (p + l.length) ls

theorem leafNodes_snoc (ls : List (List UInt8)) (l : List UInt8) : ∀ i p, leafNodes i p (ls ++ [l]) =
    leafNodes i p ls ++ [⟨i + ls.length, .r_unique_line_matcher, p + ls.flatten.length, p + ls.flatten.length + l.length,
      true, []⟩] := by
  induction ls with
  | nil => intro i p; simp [leafNodes]
  | cons a ls ih =>
    intro i p
    simp only [List.cons_append, leafNodes, ih, List.length_cons, List.flatten_cons, List.length_append]
    congr 3
    simp only [Node.mk.injEq, true_and, and_true]
    omega

theorem leafNodes_length (ls : List (List UInt8)) : ∀ i p, (leafNodes i p ls).length = ls.length := by
  induction ls with
  | nil => intro i p; rfl
  | cons a ls ih => intro i p; simp [leafNodes, ih]

/-- The store while the lines `ls` have been accepted: root, grammar node, one leaf per line, then `extra`. -/
def store11 (rootKids : List Nat) (q : Nat) (b : Bool) (ls : List (List UInt8)) (extra : List (Node Ex11)) :
    List (Node Ex11) :=
  ⟨0, .r_grammar, 0, 0, true, rootKids⟩ ::
    ⟨1, .r_grammar, 0, q, b, List.range' 2 (ls.length + extra.length)⟩ :: (leafNodes 2 0 ls ++ extra)

/-- The failed last attempt. -/
def failNode (ls : List (List UInt8)) : Node Ex11 :=
  ⟨2 + ls.length, .r_unique_line_matcher, ls.flatten.length, ls.flatten.length, false, []⟩

/-- State while the loop is running. -/
structure Loop11 (src : Source) (ls : List (List UInt8)) (st : St11) : Prop where
  nodes : st.pub.nodes = store11 [] 0 false ls []
  user : st.user = ls.reverse
  memo : ∀ p, ls.flatten.length ≤ p → st.cache.memo .r_unique_line_matcher p = none
  pre : ls.flatten <+: src.bytes
  ok : DistinctLines ls

theorem IsLine.pos {l : List UInt8} (h : IsLine l) : 0 < l.length := by
  obtain ⟨w, hw, _, rfl⟩ := h; simp

theorem lines_le {ls : List (List UInt8)} (h : ∀ l ∈ ls, IsLine l) : ls.length ≤ ls.flatten.length := by
  induction ls with
  | nil => simp
  | cons l ls ih =>
    have := (h l (by simp)).pos
    have := ih fun l hl => h l (by simp [hl])
    simp at *; omega

/-- One round. -/
theorem loop_step {src : Source} (hs : src.bytes.length + 4 ≤ 2 ^ 32) (ht : src.IsText) {ls : List (List UInt8)} {st : St11}
    (h : Loop11 src ls st) :
    (∃ l rest st', src.bytes = (ls ++ [l]).flatten ++ rest ∧ Loop11 src (ls ++ [l]) st' ∧ ∀ n, src.bytes.length ≤ n →
      eval ex11Parser src (n + 9) (.varName .r_unique_line_matcher) 1 ls.flatten.length st =
        .ok (true, (ls ++ [l]).flatten.length, st')) ∨
    ((∀ l rest, IsLine l → src.bytes = (ls ++ [l]).flatten ++ rest → l ∈ ls) ∧
      ∃ st', st'.pub.nodes = store11 [] 0 false ls [failNode ls] ∧ ∀ n, src.bytes.length ≤ n →
      eval ex11Parser src (n + 9) (.varName .r_unique_line_matcher) 1 ls.flatten.length st =
        .ok (false, ls.flatten.length, st')) := by
  obtain ⟨rest0, hrest0⟩ := h.pre
  have hdrop : src.bytes.drop ls.flatten.length = rest0 := by rw [← hrest0]; simp
  have hlen : st.pub.nodes.length = 2 + ls.length := by rw [h.nodes]; simp [store11, leafNodes_length]; omega
  have hle := lines_le h.ok.1
  have hle2 : ls.flatten.length ≤ src.bytes.length := by rw [← hrest0]; simp
  have hroom : st.pub.nodes.length < 4294967296 := by omega
  have hnd : st.pub.nodes[1]? = some ⟨1, .r_grammar, 0, 0, false, List.range' 2 ls.length⟩ := by
    rw [h.nodes]; rfl
  rcases hooked_eval (src := src) (by omega) ht (p := ls.flatten.length) st with
    ⟨l, rest, hl, hd, hm, hrun⟩ | ⟨hno, hrun⟩
  · left
    have hb : src.bytes = (ls ++ [l]).flatten ++ rest := by
      rw [List.flatten_append, List.append_assoc, List.flatten_singleton, ← hd, hdrop, hrest0]
    refine ⟨l, rest, St11.after st 1 ⟨1, .r_grammar, 0, 0, false, List.range' 2 ls.length⟩ ls.flatten.length true
      (ls.flatten.length + l.length) (l :: st.user), hb, ?_, fun n hn => ?_⟩
    rotate_left
    · have hfl : (ls ++ [l]).flatten.length = ls.flatten.length + l.length := by simp
      rw [hfl]
      exact call_eval hroom (h.memo _ (Nat.le_refl _)) hnd fun k c pb => hrun n k hn c pb
    · refine ⟨?_, ?_, ?_, ⟨rest, hb.symm⟩, ?_, ?_⟩
      · simp only [St11.after, h.nodes, store11, leafNodes_snoc]
        simp [Nat.add_comm, List.range'_concat, leafNodes_length]
        omega
      · simp [St11.after, h.user]
      · intro p hp
        have hpos := hl.pos
        simp only [List.flatten_append, List.flatten_singleton, List.length_append] at hp
        simp only [St11.after, Cache.insert]
        rw [if_neg (by omega)]
        exact h.memo p (by omega)
      · intro x hx
        rcases List.mem_append.mp hx with hx | hx
        · exact h.ok.1 x hx
        · have := List.mem_singleton.mp hx; subst this; exact hl
      · rw [List.nodup_append]
        refine ⟨h.ok.2, by simp, ?_⟩
        intro a ha b hb hab
        have := List.mem_singleton.mp hb
        subst this; subst hab
        exact hm (by rw [h.user]; simpa using ha)
  · right
    refine ⟨fun l rest hl hb => ?_, St11.after st 1 ⟨1, .r_grammar, 0, 0, false, List.range' 2 ls.length⟩ ls.flatten.length
      false ls.flatten.length st.user, ?_, fun n hn => call_eval hroom (h.memo _ (Nat.le_refl _)) hnd
      fun k c pb => hrun n k hn c pb⟩
    · have := hno l rest hl (by
        rw [hb]
        simp [List.flatten_append])
      rw [h.user] at this
      simpa using this
    · simp only [St11.after, h.nodes, store11, failNode]
      simp [Nat.add_comm, List.range'_concat, leafNodes_length]
      omega

/-- The whole loop. -/
theorem loop_run {src : Source} (hs : src.bytes.length + 4 ≤ 2 ^ 32) (ht : src.IsText) : ∀ (d : Nat)
    (ls : List (List UInt8)) (st : St11), src.bytes.length - ls.flatten.length ≤ d → Loop11 src ls st →
    ∃ more rest st', src.bytes = (ls ++ more).flatten ++ rest ∧ DistinctLines (ls ++ more) ∧
      (∀ l rest', IsLine l → rest = l ++ rest' → l ∈ ls ++ more) ∧
      st'.pub.nodes = store11 [] 0 false (ls ++ more) [failNode (ls ++ more)] ∧
      ∀ n m, src.bytes.length ≤ n → d + 1 ≤ m →
      repeatLoop (eval ex11Parser src (n + 10) (.subexpression (.varName .r_unique_line_matcher))) 1 m
        ls.flatten.length st = .ok (true, (ls ++ more).flatten.length, st') := by
  intro d
  induction d with
  | zero =>
    intro ls st hd h
    rcases loop_step hs ht h with ⟨l, rest, st', hb, h', hrun⟩ | ⟨hno, st', hn, hrun⟩
    · exfalso
      have := congrArg List.length hb
      have hp := (h'.ok.1 l (by simp)).pos
      simp at this hd
      omega
    · obtain ⟨rest, hrest⟩ := h.pre
      refine ⟨[], rest, st', by simp [hrest], by simpa using h.ok, fun l r hl hr => ?_, by simpa using hn, ?_⟩
      · have := hno l r hl (by rw [← hrest, hr]; simp)
        simpa using this
      · intro n m hn hm
        obtain ⟨m, rfl⟩ : ∃ m', m = m' + 1 := ⟨m - 1, by omega⟩
        rw [repeatLoop, eval, subexpressionKernel, hrun n hn]
        simp
  | succ d ih =>
    intro ls st hd h
    rcases loop_step hs ht h with ⟨l, rest, st', hb, h', hrun⟩ | ⟨hno, st', hn, hrun⟩
    · have hp := (h'.ok.1 l (by simp)).pos
      obtain ⟨more, rest', st2, e1, e2, e3, e4, e5⟩ := ih (ls ++ [l]) st' (by simp at hd ⊢; omega) h'
      have hassoc : ls ++ [l] ++ more = ls ++ (l :: more) := by simp
      rw [hassoc] at e1 e2 e3 e4 e5
      refine ⟨l :: more, rest', st2, e1, e2, e3, e4, fun n m hn hm => ?_⟩
      obtain ⟨m, rfl⟩ : ∃ m', m = m' + 1 := ⟨m - 1, by omega⟩
      rw [repeatLoop, eval, subexpressionKernel, hrun n hn]
      have := e5 n m hn (by omega)
      rw [eval] at this
      simpa using this
    · obtain ⟨rest, hrest⟩ := h.pre
      refine ⟨[], rest, st', by simp [hrest], by simpa using h.ok, fun l r hl hr => ?_, by simpa using hn, ?_⟩
      · have := hno l r hl (by rw [← hrest, hr]; simp)
        simpa using this
      · intro n m hn hm
        obtain ⟨m, rfl⟩ : ∃ m', m = m' + 1 := ⟨m - 1, by omega⟩
        rw [repeatLoop, eval, subexpressionKernel, hrun n hn]
        simp

/-! ## The whole parse -/

theorem loop11_init (src : Source) (c : Cache Ex11) (hc : ∀ p, c.memo .r_unique_line_matcher p = none) :
    Loop11 src [] ⟨c, ⟨store11 [] 0 false [] []⟩, []⟩ :=
  ⟨rfl, rfl, fun p _ => hc p, ⟨src.bytes, rfl⟩, by simp [DistinctLines]⟩

/-- The body of the start rule. -/
theorem grammar_run {src : Source} (hs : src.bytes.length + 4 ≤ 2 ^ 32) (ht : src.IsText) :
    ∃ (ls : List (List UInt8)) (rest : List UInt8) (st' : St11), src.bytes = ls.flatten ++ rest ∧ DistinctLines ls ∧
      (∀ l rest', IsLine l → rest = l ++ rest' → l ∈ ls) ∧ st'.pub.nodes = store11 [] 0 false ls [failNode ls] ∧
      ∀ n, src.bytes.length ≤ n →
      eval ex11Parser src (n + 11) (Ex11.body .r_grammar) 1 0 ⟨.new, ⟨store11 [] 0 false [] []⟩, []⟩ =
        .ok (!ls.isEmpty, ls.flatten.length, st') := by
  have h0 := loop11_init src .new (fun p => rfl)
  have hbody : Ex11.body .r_grammar = .oneOrMore (.subexpression (.varName .r_unique_line_matcher)) := rfl
  rcases loop_step hs ht h0 with ⟨l, rest, st1, hb, h', hrun⟩ | ⟨hno, st1, hn, hrun⟩
  · obtain ⟨more, rest, st', e1, e2, e3, e4, e5⟩ := loop_run hs ht src.bytes.length _ st1 (by omega) h'
    refine ⟨_, rest, st', e1, e2, e3, e4, fun n hn => ?_⟩
    rw [hbody, eval, oneOrMoreKernel]
    have hr := hrun n hn
    simp only [List.flatten_nil, List.length_nil] at hr
    conv => lhs; arg 1; rw [eval, subexpressionKernel, hr]
    simp only [Out.bind_ok, Bool.not_true, Bool.false_eq_true, if_false]
    rw [e5 n (n + 10) hn (by omega)]
    simp
  · refine ⟨[], src.bytes, st1, by simp, by simp [DistinctLines], fun l r hl hr => ?_, hn, fun n hn => ?_⟩
    · exact hno l r hl (by simpa using hr)
    · rw [hbody, eval, oneOrMoreKernel, eval, subexpressionKernel]
      have hr := hrun n hn
      simp only [List.flatten_nil, List.length_nil] at hr
      rw [hr]
      simp

theorem unf_leaves (nodes : List (Node Ex11)) (ls : List (List UInt8)) : ∀ (i p : Nat),
    (∀ (j : Nat) nd, (leafNodes i p ls)[j]? = some nd → nodes[i + j]? = some nd) →
    UnfL nodes (List.range' i ls.length) (lineTrees p ls) := by
  induction ls with
  | nil => intro i p h; exact .nil
  | cons l ls ih =>
    intro i p h
    rw [List.length_cons, List.range'_succ, lineTrees]
    have h0 := h 0 _ rfl
    exact .cons (nd := ⟨i, .r_unique_line_matcher, p, p + l.length, true, []⟩) h0 .nil
      (ih (i + 1) (p + l.length) fun j nd hj => by
        have := h (j + 1) nd (by simpa [leafNodes] using hj)
        rwa [show i + 1 + j = i + (j + 1) by omega])

/-- The trees of the store at the end. -/
theorem unf_store (ls : List (List UInt8)) (q : Nat) (b : Bool) :
    UnfL (store11 [1] q b ls [failNode ls]) [1]
      [.node .r_grammar (if b then some (0, q) else none) (lineTrees 0 ls ++ [.node .r_unique_line_matcher none []])] := by
  refine .cons (nd := (⟨1, .r_grammar, 0, q, b, List.range' 2 (ls.length + 1)⟩ : Node Ex11)) rfl ?_ .nil
  simp only
  rw [List.range'_1_concat]
  have hget : ∀ (j : Nat), (store11 [1] q b ls [failNode ls])[2 + j]? = (leafNodes 2 0 ls ++ [failNode ls])[j]? := by
    intro j; rw [Nat.add_comm]; rfl
  refine .append (unf_leaves _ ls 2 0 fun j nd hj => ?_) ?_
  · rw [hget, List.getElem?_append_left (by have := lt_of_getElem?_some hj; exact this)]; exact hj
  · refine .cons (nd := failNode ls) ?_ .nil .nil
    rw [hget, List.getElem?_append_right (by simp [leafNodes_length])]
    simp [leafNodes_length]

theorem prune_lines (ls : List (List UInt8)) (hl : ∀ l ∈ ls, IsLine l) : ∀ p,
    Tree.prune.pruneL (lineTrees p ls ++ [.node .r_unique_line_matcher none []]) = lineTrees p ls := by
  induction ls with
  | nil => intro p; simp [lineTrees, Tree.prune.pruneL, Tree.prune]
  | cons l ls ih =>
    intro p
    have hp := (hl l (by simp)).pos
    rw [lineTrees, List.cons_append, Tree.prune.pruneL, ih (fun x hx => hl x (by simp [hx])), prune_some,
      if_neg (by omega)]
    simp [Tree.prune.pruneL]

theorem sizeL_lines (ls : List (List UInt8)) : ∀ p, Tree.size.sizeL (lineTrees p ls) = ls.length := by
  induction ls with
  | nil => intro p; rfl
  | cons l ls ih => intro p; rw [lineTrees, Tree.size.sizeL, ih, Tree.size]; simp [Tree.size.sizeL]; omega

end PP
