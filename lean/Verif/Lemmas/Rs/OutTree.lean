import Verif.Lemmas.Rs.Expr

/-! # The trees that the expression functions make can be printed -/
namespace PP.Rs
open Gen

variable {e : Gen.Env}

/-- A tree that can be printed, with keys that fit. -/
structure Fine (t : BTree) : Prop where
  ok : TreeOk t
  keys : ∀ nd ∈ t, ∀ k, nd.lhs = some k ∨ nd.rhs = some k → k ≤ t.length

theorem Fine.new : Fine BTree.new := by
  refine ⟨?_, ?_⟩
  · intro nd h
    simp only [BTree.new, List.mem_singleton] at h
    subst h
    trivial
  · intro nd h k hk
    simp only [BTree.new, List.mem_singleton] at h
    subst h
    simp at hk

theorem Fine.push {t : BTree} (h : Fine t) {r : Reference} (hr : NodeOk r) {l l' : Option Nat} (hl : ∀ k, l = some k → k ≤ t.length) (hl' : ∀ k, l' = some k → k ≤ t.length) :
    Fine (t.push r l l').2 := by
  refine ⟨?_, ?_⟩
  · intro nd hn
    rcases List.mem_append.1 hn with hn | hn
    · exact h.ok nd hn
    · simp only [List.mem_singleton] at hn
      subst hn
      exact hr
  · intro nd hn k hk
    simp only [BTree.push, List.length_append, List.length_cons, List.length_nil]
    rcases List.mem_append.1 hn with hn | hn
    · have := h.keys nd hn k hk
      omega
    · simp only [List.mem_singleton] at hn
      subst hn
      rcases hk with hk | hk
      · have := hl k hk; omega
      · have := hl' k hk; omega

theorem push_length (t : BTree) (r l l') : (t.push r l l').2.length = t.length + 1 := by simp [BTree.push]
theorem push_key (t : BTree) (r l l') : (t.push r l l').1 = t.length := rfl

/-- What a step makes of a fine tree -/
def Next (a : Acc) (r : Nat × Acc) : Prop := Fine r.2.1 ∧ r.1 ≤ r.2.1.length ∧ a.1.length ≤ r.2.1.length

def Keeps (g : Acc → Nat → Out (Nat × Acc)) (i : Nat) : Prop := ∀ a r, Fine a.1 → g a i = .ok r → Next a r

theorem next_push {a : Acc} (h : Fine a.1) {r : Reference} (hr : NodeOk r) {l l' : Option Nat} (hl : ∀ k, l = some k → k ≤ a.1.length) (hl' : ∀ k, l' = some k → k ≤ a.1.length)
    (hs : List Bytes) : Next a ((a.1.push r l l').1, (a.1.push r l l').2, hs) :=
  ⟨h.push hr hl hl', by simp [BTree.push], by simp [BTree.push]⟩

theorem keeps_terminal (i : Nat) : Keeps (terminal e) i := by
  intro a r ha h
  rw [terminal] at h
  obtain ⟨nd, -, h⟩ := bind_ok_cases h
  split at h
  · cases h
  · split at h
    · cases h
      have h1 : Fine (a.1.push (.terminal [34]) none none).2 := ha.push (r := .terminal [34]) (l := none) (l' := none) trivial (by simp) (by simp)
      have h2 := h1.push (r := .terminal [34]) (l := none) (l' := none) trivial (by simp) (by simp)
      have h3 := h2.push (r := .sequence) (l := some a.1.length) (l' := some (a.1.length + 1)) trivial (by simp [BTree.push]) (by simp [BTree.push])
      refine ⟨?_, ?_, ?_⟩
      · simpa [BTree.push] using h3
      · simp
      · simp
    · obtain ⟨c, -, h⟩ := bind_ok_cases h
      cases h
      exact next_push ha (r := .terminal _) (l := none) (l' := none) trivial (by simp) (by simp) _

theorem ascii_upper {s : Bytes} (h : ascii s = true) : ascii (cap s) = true := by
  cases s with
  | nil => rfl
  | cons c s =>
    simp only [ascii, List.all_cons, Bool.and_eq_true, decide_eq_true_eq] at h
    simp only [cap, ascii, List.all_cons, Bool.and_eq_true, decide_eq_true_eq]
    refine ⟨?_, h.2⟩
    unfold upperByte
    have := h.1
    split
    · rename_i hc
      rw [UInt8.lt_iff_toNat_lt] at *
      rw [UInt8.toNat_sub_of_le _ _ (by rw [UInt8.le_iff_toNat_le] at *; have := hc.1; simp at *; omega)]
      simp at *; omega
    · exact this

theorem mapOut_cap_ascii {l vs : List Bytes} (h : mapOut capitalise l = .ok vs) (hl : ∀ x ∈ l, ascii x = true) : ∀ v ∈ vs, ascii v = true := by
  have h0 : ∀ x ∈ l, x ≠ [] := by
    intro x hx e
    subst e
    rw [mapOut_cap_panic hx] at h
    cases h
  rw [mapOut_cap h0] at h
  cases h
  intro v hv
  obtain ⟨x, hx, rfl⟩ := List.mem_map.1 hv
  exact ascii_upper (hl x hx)

theorem keeps_varName {L : Val} (hi : Input e) (hL : Sets L e.lr) (i : Nat) : Keeps (varName e) i := by
  intro a r ha h
  rw [varName] at h
  obtain ⟨nd, -, h⟩ := bind_ok_cases h
  obtain ⟨c, hc, h⟩ := bind_ok_cases h
  have hcc : ascii c = true := by
    split at hc
    · cases hc
    · exact strSlice_ascii hi.ascii hc
  split at h
  · rename_i inv hinv
    obtain ⟨vs, hvs, h⟩ := bind_ok_cases h
    cases h
    refine next_push ha (r := .leftRecursiveRule c (sortNames vs)) (l := none) (l' := none) ⟨hcc, ?_⟩ (by simp) (by simp) _
    intro d hd
    refine mapOut_cap_ascii hvs (fun x hx => hL.ascii c inv hinv x ((e.ord.ok _ _).mem_iff.1 hx)) d ?_
    exact (List.mergeSort_perm vs bytesLe).mem_iff.1 hd
  · split at h
    · cases h
      exact next_push ha (r := .inlinedRule c) (l := none) (l' := none) hcc (by simp) (by simp) _
    · cases h
      exact next_push ha (r := .varName c) (l := none) (l' := none) hcc (by simp) (by simp) _

theorem keeps_rangeLoop (is : List Nat) (s : Option Nat) (ret : Nat) (t : BTree) (ht : Fine t) (hr : ret ≤ t.length) {k t'} (h : matchRangeLoop e is s ret t = .ok (k, t')) :
    Fine t' ∧ k ≤ t'.length ∧ t.length ≤ t'.length := by
  induction is generalizing s ret t with
  | nil =>
    rw [matchRangeLoop] at h
    cases h
    exact ⟨ht, hr, Nat.le_refl _⟩
  | cons i is ih =>
    rw [matchRangeLoop] at h
    obtain ⟨nd, -, h⟩ := bind_ok_cases h
    obtain ⟨v, -, h⟩ := bind_ok_cases h
    cases s with
    | none => exact ih _ _ _ ht hr h
    | some s =>
      have := ih _ _ _ (ht.push (r := .matchRange s v) (l := none) (l' := none) trivial (by simp) (by simp)) (by simp [BTree.push]) h
      rw [push_length] at this
      exact ⟨this.1, this.2.1, by omega⟩

theorem keeps_range (i : Nat) : Keeps (orderedChoiceMatchRange e) i := by
  intro a r ha h
  rw [orderedChoiceMatchRange] at h
  obtain ⟨nd, -, h⟩ := bind_ok_cases h
  obtain ⟨⟨k, t⟩, hk, h⟩ := bind_ok_cases h
  cases h
  exact keeps_rangeLoop _ _ _ _ ha (Nat.zero_le _) hk

theorem keeps_string (hs : AsciiStrings e) {i : Nat} {nd : Node Dsl} (hg : e.tree.getNode i = .ok nd) (hr : nd.rule = .r_stringterminal) : Keeps (stringTerminal e) i := by
  intro a r ha h
  rw [stringTerminal, hg] at h
  simp only [Out.bind_ok] at h
  obtain ⟨data, hd, h⟩ := bind_ok_cases h
  have hm : nd ∈ e.tree.nodes := by
    rcases getNode_cases e.tree i with ⟨nd', h1, h2⟩ | ⟨q, h1⟩
    · rw [hg] at h1; cases h1; exact h2
    · rw [hg] at h1; cases h1
  rw [hs nd hm hr data hd] at h
  cases h
  exact next_push ha (r := .stringTerminalAsciiOpt data) (l := none) (l' := none) trivial (by simp) (by simp) _

theorem keeps_childLoop {f : Dsl → Option (Acc → Nat → Out (Nat × Acc))} (hf : ∀ i nd g, e.tree.getNode i = .ok nd → f nd.rule = some g → Keeps g i)
    (is : List Nat) (ret : Nat) (a : Acc) (r) (ha : Fine a.1) (hr : ret ≤ a.1.length) (h : childLoop e f is ret a = .ok r) : Next a r := by
  induction is generalizing ret a with
  | nil =>
    rw [childLoop] at h
    cases h
    exact ⟨ha, hr, Nat.le_refl _⟩
  | cons i is ih =>
    rw [childLoop] at h
    obtain ⟨nd, hg, h⟩ := bind_ok_cases h
    split at h
    · cases h
    · rename_i g hfg
      obtain ⟨r', hr', h⟩ := bind_ok_cases h
      have h1 := hf i nd g hg hfg a r' ha hr'
      have h2 := ih _ _ h1.1 h1.2.1 h
      exact ⟨h2.1, h2.2.1, Nat.le_trans h1.2.2 h2.2.2⟩

theorem keeps_unary {f : Acc → Nat → Out (Nat × Acc)} {i : Nat} (hf : Keeps f i) {r : Reference} (hr : NodeOk r) : Keeps (pushUnary r f) i := by
  intro a x ha h
  rw [pushUnary] at h
  obtain ⟨r', hr', h⟩ := bind_ok_cases h
  cases h
  have h1 := hf a r' ha hr'
  have h2 := next_push h1.1 hr (l := some r'.1) (l' := none) (by simpa using h1.2.1) (by simp) r'.2.2
  exact ⟨h2.1, h2.2.1, Nat.le_trans h1.2.2 h2.2.2⟩

theorem keeps_chainLoop {g : Acc → Nat → Out (Nat × Acc)} (hg : ∀ i, Keeps g i) {ref : Reference} (href : NodeOk ref)
    (is : List Nat) (last : Option Nat) (a : Acc) (r) (ha : Fine a.1) (hr : ∀ k, last = some k → k ≤ a.1.length) (h : chainLoop e ref g is last a = .ok r) : Next a r := by
  induction is generalizing last a with
  | nil =>
    rw [chainLoop] at h
    cases h
    refine ⟨ha, ?_, Nat.le_refl _⟩
    cases last with
    | none => exact Nat.zero_le _
    | some k => exact hr k rfl
  | cons i is ih =>
    rw [chainLoop] at h
    obtain ⟨nd, -, h⟩ := bind_ok_cases h
    split at h
    · cases h
    · obtain ⟨r', hr', h⟩ := bind_ok_cases h
      have h1 := hg i a r' ha hr'
      cases last with
      | none =>
        have h2 := ih _ _ h1.1 (by simpa using h1.2.1) h
        exact ⟨h2.1, h2.2.1, Nat.le_trans h1.2.2 h2.2.2⟩
      | some l =>
        have hl := hr l rfl
        have h3 := next_push h1.1 href (l := some l) (l' := some r'.1) (by have := h1.2.2; simp; omega) (by simpa using h1.2.1) r'.2.2
        have h2 := ih _ _ h3.1 (fun k hk => by cases hk; exact h3.2.1) h
        exact ⟨h2.1, h2.2.1, Nat.le_trans h1.2.2 (Nat.le_trans h3.2.2 h2.2.2)⟩

theorem keeps_expr {L : Val} (hi : Input e) (hL : Sets L e.lr) (hs : AsciiStrings e) (n : Nat) : ∀ f i, Keeps (expr e n f) i := by
  induction n with
  | zero =>
    intro f i a r _ h
    cases h
  | succ n ih =>
    intro f i a r ha h
    cases f <;> rw [expr] at h <;> obtain ⟨nd, hg, h⟩ := bind_ok_cases h
    case hookedCall =>
      obtain ⟨c, -, h⟩ := bind_ok_cases h
      obtain ⟨cd, -, h⟩ := bind_ok_cases h
      split at h
      · cases h
      · obtain ⟨name, -, h⟩ := bind_ok_cases h
        obtain ⟨r', hr', h⟩ := bind_ok_cases h
        cases h
        have h1 := ih .subexpression i (a.1, a.2 ++ [name]) r' ha hr'
        have h2 := next_push h1.1 (r := .hookedCall name) trivial (l := some r'.1) (l' := none) (by simpa using h1.2.1) (by simp) r'.2.2
        exact ⟨h2.1, h2.2.1, Nat.le_trans h1.2.2 h2.2.2⟩
    case orderedChoice => exact keeps_chainLoop (ih .atom) (ref := .orderedChoice) trivial _ _ _ _ ha (by simp) h
    case sequence => exact keeps_chainLoop (ih .atom) (ref := .sequence) trivial _ _ _ _ ha (by simp) h
    case nucleus =>
      refine keeps_childLoop ?_ _ _ _ _ ha (Nat.zero_le _) h
      intro i nd g hg hf
      split at hf <;> cases hf
      · exact ih .subexpression i
      · exact keeps_terminal i
      · exact keeps_varName hi hL i
      · exact keeps_range i
      · exact keeps_string hs hg (by assumption)
      · exact ih .hookedCall i
    all_goals
      refine keeps_childLoop ?_ _ _ _ _ ha (Nat.zero_le _) h
      intro i nd g hg hf
      split at hf <;> cases hf <;> first | exact ih _ i | exact keeps_unary (ih _ i) trivial

theorem wrap_fine {t : BTree} (h : Fine t) (hl : t.length < 4294967296) : t.map wrapNode = t := by
  conv => rhs; rw [← List.map_id t]
  refine List.map_congr_left fun nd hn => ?_
  obtain ⟨r, l, l'⟩ := nd
  have := h.keys _ hn
  simp only [wrapNode, id_eq, BinaryNode.mk.injEq, true_and]
  constructor
  · cases l with
    | none => rfl
    | some k => simp only [Option.map_some, Option.some.injEq]; exact Nat.mod_eq_of_lt (by have := this k (.inl rfl); omega)
  · cases l' with
    | none => rfl
    | some k => simp only [Option.map_some, Option.some.injEq]; exact Nat.mod_eq_of_lt (by have := this k (.inr rfl); omega)

end PP.Rs
