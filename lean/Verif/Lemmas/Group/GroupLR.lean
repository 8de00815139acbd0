import Verif.Lemmas.Group.GTPeg
import Verif.Lemmas.Group.Frame

/-! # Groups of left-recursive rules: the growth algorithm builds the specified trees -/
set_option linter.unusedSectionVars false
namespace PP
variable {R : Type} [DecidableEq R]

section
variable (body : R → Expr R) (role : R → Role R) (src : Source)

/-- What a memo entry means. -/
def MOK (r : R) (p : Nat) (b : Bool) (q : Nat) (t : Tree R) : Prop :=
  match role r with
  | .plain => GT body role src [] (.varName r) p b q [t]
  | .head d => GT body role src [] (.varNameLR d.involved r) p b q [t]
  | .member _ => True

/-- State invariant; `stk` are the growths in progress. -/
structure GOK (stk : List (R × Nat)) (s : TSt R) : Prop where
  keys : KeysOK s
  memo : ∀ r p b q k, (r, p) ∉ stk → s.cache.memo r p = some (b, q, k) → MOK body role src r p b q (s.tree k)
  heads : ∀ r p h, (r, p) ∉ stk → s.cache.heads r p = some h → s.cache.memo r p ≠ none
  memoHead : ∀ A d p, role A = .head d → s.cache.memo A p ≠ none → s.cache.heads A p ≠ none
  memoMem : ∀ X A p, role X = .member A → s.cache.memo X p ≠ none → s.cache.heads A p ≠ none
  inv : ∀ r p h, s.cache.heads r p = some h → ∃ d, role r = .head d ∧ (∀ x, x ∈ h.involved ↔ x ∈ d.involved) ∧
    (∀ x ∈ h.evalSet, x ∈ h.involved)
  stk : ∀ x ∈ stk, ∃ d, role x.1 = .head d

/-- The active growth does not involve a rule that `e` may call. -/
def GAct (act : Option (R × Nat)) (e : Expr R) : Prop :=
  ∀ A pa, act = some (A, pa) → ∀ d, role A = .head d → ∀ B, CallsLR body e B → B ∉ d.involved

/-- `e` at `p` does not call a growth in progress. -/
def GSafe (stk : List (R × Nat)) (e : Expr R) (p : Nat) : Prop :=
  ∀ x ∈ stk, x.2 ≤ p ∧ (x.2 = p → ¬ FReach (groupBody body role) e.deLR x.1)

/-- What a call leaves alone. -/
structure GrFr (stk : List (R × Nat)) (s s' : TSt R) : Prop where
  memo : ∀ x ∈ stk, s'.cache.memo x.1 x.2 = s.cache.memo x.1 x.2
  heads : ∀ x ∈ stk, s'.cache.heads x.1 x.2 = s.cache.heads x.1 x.2
  mem : ∀ x ∈ stk, ∀ X, role X = .member x.1 → s'.cache.memo X x.2 = s.cache.memo X x.2

/-- Partial correctness of expressions without recursive references, for derivations of height `n`.  Outside any growth, only
expressions without left-recursive references are considered. -/
def GClaim (n : Nat) : Prop :=
  ∀ (e : Expr R) stk pre p (s : TSt R) b q ks s', e.GRefs role → GOK body role src stk s → GSafe body role stk e p →
    GAct body role s.cache.active e → (s.cache.active = none → ∀ B, ¬ CallsLR body e B) →
    (∀ k ∈ pre, k < s.next) → TEv body src n e pre p s b q ks s' →
    GT body role src (pre.map s.tree) e p b q (ks.map s'.tree) ∧ GOK body role src stk s' ∧ GrFr role stk s s'
end

section
variable {body : R → Expr R} {role : R → Role R} {src : Source}

theorem GrFr.refl {stk : List (R × Nat)} {s : TSt R} : GrFr role stk s s := ⟨fun _ _ => rfl, fun _ _ => rfl, fun _ _ _ _ => rfl⟩
theorem GrFr.trans {stk : List (R × Nat)} {a b c : TSt R} (h : GrFr role stk a b) (h' : GrFr role stk b c) : GrFr role stk a c :=
  ⟨fun x hx => (h'.memo x hx).trans (h.memo x hx), fun x hx => (h'.heads x hx).trans (h.heads x hx),
    fun x hx X hX => (h'.mem x hx X hX).trans (h.mem x hx X hX)⟩
theorem GrFr.sub {stk stk' : List (R × Nat)} {s s' : TSt R} (h : GrFr role stk' s s') (hs : ∀ x ∈ stk, x ∈ stk') :
    GrFr role stk s s' := ⟨fun x hx => h.memo x (hs x hx), fun x hx => h.heads x (hs x hx), fun x hx => h.mem x (hs x hx)⟩

theorem GSafe.lift {stk : List (R × Nat)} {e e' : Expr R} {p p' : Nat} (h : GSafe body role stk e p) (hp : p ≤ p')
    (hr : p' = p → ∀ r, FirstRef (groupBody body role) e'.deLR r → FirstRef (groupBody body role) e.deLR r) :
    GSafe body role stk e' p' := by
  intro x hx
  obtain ⟨h1, h2⟩ := h x hx
  refine ⟨by omega, fun h3 h4 => ?_⟩
  exact h2 (by omega) (h4.lift (hr (by omega)))

theorem GSafe.later {stk : List (R × Nat)} {e : Expr R} {p p' : Nat} (h : ∀ x ∈ stk, x.2 ≤ p) (hp : p < p') :
    GSafe body role stk e p' := by
  intro x hx
  have := h x hx
  exact ⟨by omega, fun h3 => by omega⟩

theorem GAct.lift {act : Option (R × Nat)} {e e' : Expr R} (h : GAct body role act e)
    (hr : ∀ r, CallsLR body e' r → CallsLR body e r) : GAct body role act e' :=
  fun A pa ha d hd B hB => h A pa ha d hd B (hr B hB)

/-- A state with the same memo table, in which trees of memoised keys are the same. -/
theorem GOK.put {stk : List (R × Nat)} {s : TSt R} (h : GOK body role src stk s) {r p b q k ks} (hk : k < s.next)
    (hfresh : ∀ r' p' b' q', s.cache.memo r' p' ≠ some (b', q', k))
    (hm : (r, p) ∉ stk → MOK body role src r p b q (Tree.mk r p b q (ks.map s.tree)))
    (hh : ∀ d, role r = .head d → s.cache.heads r p ≠ none)
    (hmem : ∀ A, role r = .member A → s.cache.heads A p ≠ none) :
    GOK body role src stk (s.put r p b q k ks) := by
  have htree : ∀ r' p' b' q' k', s.cache.memo r' p' = some (b', q', k') → (s.put r p b q k ks).tree k' = s.tree k' := by
    intro r' p' b' q' k' hm
    simp only [TSt.put, TSt.setTree]
    rw [if_neg]
    rintro rfl
    exact hfresh _ _ _ _ hm
  refine ⟨fun r' p' b' q' k' hmm => ?_, fun r' p' b' q' k' hns hmm => ?_, fun r' p' h' hns hh' => ?_,
    fun A d p' hA hmm => ?_, fun X A p' hX hmm => ?_, h.inv, h.stk⟩
  · simp only [TSt.put, Cache.insert] at hmm
    split at hmm
    · simp only [Option.some.injEq, Prod.mk.injEq] at hmm
      simp only [TSt.put, TSt.setTree]
      omega
    · exact h.keys _ _ _ _ _ hmm
  · have hmm' := hmm
    simp only [TSt.put, Cache.insert] at hmm
    split at hmm
    · next heq =>
      obtain ⟨rfl, rfl⟩ := heq
      simp only [Option.some.injEq, Prod.mk.injEq] at hmm
      obtain ⟨rfl, rfl, rfl⟩ := hmm
      simpa [TSt.put, TSt.setTree] using hm hns
    · rw [htree _ _ _ _ _ hmm]
      exact h.memo _ _ _ _ _ hns hmm
  · simp only [TSt.put, Cache.insert] at hh' ⊢
    split
    · simp
    · exact h.heads _ _ _ hns hh'
  · simp only [TSt.put, Cache.insert] at hmm ⊢
    split at hmm
    · next heq =>
      obtain ⟨rfl, rfl⟩ := heq
      exact hh d hA
    · exact h.memoHead _ _ _ hA hmm
  · simp only [TSt.put, Cache.insert] at hmm ⊢
    split at hmm
    · next heq =>
      obtain ⟨rfl, rfl⟩ := heq
      exact hmem A hX
    · exact h.memoMem _ _ _ hX hmm

/-- Allocating a key changes nothing. -/
theorem GOK.alloc {stk : List (R × Nat)} {s : TSt R} (h : GOK body role src stk s) (n : Nat) :
    GOK body role src stk { s with next := s.next + n } :=
  ⟨fun r p b q k hm => Nat.lt_of_lt_of_le (h.keys r p b q k hm) (Nat.le_add_right _ _), h.memo, h.heads, h.memoHead, h.memoMem,
    h.inv, h.stk⟩

/-- Changing the evaluation set of a growth in progress. -/
theorem GOK.putHead {stk : List (R × Nat)} {s : TSt R} (h : GOK body role src stk s) {A : R} {p : Nat} {hh : Head R}
    {es : List R} (hhd : s.cache.heads A p = some hh) (hes : ∀ x ∈ es, x ∈ hh.involved) :
    GOK body role src stk { s with cache := s.cache.putHead A p { hh with evalSet := es } } := by
  refine ⟨h.keys, h.memo, fun r' p' h' hns hh' => ?_, fun B d p' hB hmm => ?_, fun X B p' hX hmm => ?_, fun r' p' h' hh' => ?_,
    h.stk⟩
  · simp only [Cache.putHead] at hh' ⊢
    split at hh'
    · next heq =>
      obtain ⟨rfl, rfl⟩ := heq
      exact h.heads _ _ _ hns hhd
    · exact h.heads _ _ _ hns hh'
  · simp only [Cache.putHead] at hmm ⊢
    split
    · simp
    · exact h.memoHead _ _ _ hB hmm
  · simp only [Cache.putHead] at hmm ⊢
    split
    · simp
    · exact h.memoMem _ _ _ hX hmm
  · simp only [Cache.putHead] at hh'
    split at hh'
    · next heq =>
      obtain ⟨rfl, rfl⟩ := heq
      simp only [Option.some.injEq] at hh'
      subst hh'
      obtain ⟨d, g1, g2, g3⟩ := h.inv _ _ _ hhd
      exact ⟨d, g1, g2, hes⟩
    · exact h.inv _ _ _ hh'

/-- The evaluation set of the growth at `(A, p)`. -/
def ES (s : TSt R) (A : R) (p : Nat) : List R :=
  match s.cache.heads A p with
  | some h => h.evalSet
  | none => []

theorem ES.eq {s : TSt R} {A : R} {p : Nat} {h : Head R} (hh : s.cache.heads A p = some h) : ES s A p = h.evalSet := by
  simp [ES, hh]

/-- The tree of `A` so far, as found in the memo table. -/
def AM (A : R) (p : Nat) (s : TSt R) (sd : Option (Nat × Tree R)) : Prop :=
  match sd with
  | some (q0, t0) => ∃ k, s.cache.memo A p = some (true, q0, k) ∧ s.tree k = t0 ∧ p < q0
  | none => ∀ b q k, s.cache.memo A p = some (b, q, k) → b = false ∧ (s.tree k).Failed

/-- The memo entry of the member `X` is right for the seed `sd`. -/
def MC (body : R → Expr R) (role : R → Role R) (src : Source) (A : R) (p : Nat) (s : TSt R) (X : R)
    (sd : Option (Nat × Tree R)) : Prop :=
  match sd with
  | some (q0, t0) => ∃ b q k us, s.cache.memo X p = some (b, q, k) ∧ s.tree k = Tree.mk X p b q us ∧
      HV body role src A p q0 t0 [] (body X) b q us
  | none => ∀ b q k, s.cache.memo X p = some (b, q, k) → b = false ∧ (s.tree k).Failed

/-- The outcome of a recursive expression for the seed `sd`. -/
def HTV (body : R → Expr R) (role : R → Role R) (src : Source) (A : R) (p : Nat) (sd : Option (Nat × Tree R))
    (pre : List (Tree R)) (e : Expr R) (b : Bool) (q : Nat) (ts : List (Tree R)) : Prop :=
  match sd with
  | some (q0, t0) => HV body role src A p q0 t0 pre e b q ts
  | none => b = false ∧ ∀ t ∈ ts, t.Failed

theorem AM.mono {A : R} {p : Nat} {s s' : TSt R} {sd : Option (Nat × Tree R)} (h : AM A p s sd) (hk : KeysOK s)
    (hf : TFr s.next s s') (hm : s'.cache.memo A p = s.cache.memo A p) : AM A p s' sd := by
  cases sd with
  | none =>
    intro b q k hx
    rw [hm] at hx
    rw [hf.tree k (hk _ _ _ _ _ hx)]
    exact h b q k hx
  | some v =>
    obtain ⟨k, h1, h2, h3⟩ := h
    exact ⟨k, hm.trans h1, (hf.tree k (hk _ _ _ _ _ h1)).trans h2, h3⟩

theorem MC.mono {A : R} {p : Nat} {s s' : TSt R} {X : R} {sd : Option (Nat × Tree R)} (h : MC body role src A p s X sd)
    (hk : KeysOK s) (hf : TFr s.next s s') (hm : s'.cache.memo X p = s.cache.memo X p) : MC body role src A p s' X sd := by
  cases sd with
  | none =>
    intro b q k hx
    rw [hm] at hx
    rw [hf.tree k (hk _ _ _ _ _ hx)]
    exact h b q k hx
  | some v =>
    obtain ⟨b, q, k, us, h1, h2, h3⟩ := h
    exact ⟨b, q, k, us, hm.trans h1, (hf.tree k (hk _ _ _ _ _ h1)).trans h2, h3⟩

/-- State while growing `(A, p)` in which references to `A` are answered from the memo table. -/
structure G0 (body : R → Expr R) (role : R → Role R) (src : Source) (A : R) (p : Nat) (stk : List (R × Nat))
    (sd : Option (Nat × Tree R)) (s : TSt R) : Prop where
  ok : GOK body role src ((A, p) :: stk) s
  active : s.cache.active = some (A, p)
  head : s.cache.heads A p ≠ none
  es : A ∉ ES s A p
  am : AM A p s sd
  pos : ∀ X q k, role X = .member A → s.cache.memo X p = some (true, q, k) → p < q

/-- What the evaluation of a recursive expression at level 0 leaves alone. -/
structure HF (role : R → Role R) (A : R) (p : Nat) (stk : List (R × Nat)) (s s' : TSt R) : Prop where
  fr : GrFr role stk s s'
  memoA : s'.cache.memo A p = s.cache.memo A p
  es : ∀ x ∈ ES s' A p, x ∈ ES s A p
  mem : ∀ X, role X = .member A → X ∉ ES s A p → s'.cache.memo X p = s.cache.memo X p

theorem HF.refl {A : R} {p : Nat} {stk : List (R × Nat)} {s : TSt R} : HF role A p stk s s :=
  ⟨.refl, rfl, fun _ h => h, fun _ _ _ => rfl⟩
theorem HF.trans {A : R} {p : Nat} {stk : List (R × Nat)} {s s' s'' : TSt R} (h : HF role A p stk s s')
    (h' : HF role A p stk s' s'') : HF role A p stk s s'' :=
  ⟨h.fr.trans h'.fr, h'.memoA.trans h.memoA, fun x hx => h.es x (h'.es x hx), fun X hX hn =>
    (h'.mem X hX (fun hx => hn (h.es X hx))).trans (h.mem X hX hn)⟩

/-- Members already settled (and not in progress) are right for the seed. -/
def CW (body : R → Expr R) (role : R → Role R) (src : Source) (A : R) (d : LRDecl R) (p : Nat) (pend : List R) (s : TSt R)
    (sd : Option (Nat × Tree R)) : Prop :=
  ∀ X, role X = .member A → X ∈ d.involved → X ∉ ES s A p → X ∉ pend → MC body role src A p s X sd

theorem G0.of_fr {A : R} {p : Nat} {stk : List (R × Nat)} {sd : Option (Nat × Tree R)} {s s' : TSt R}
    (h : G0 body role src A p stk sd s) (ho : GOK body role src ((A, p) :: stk) s') (ha : s'.cache.active = s.cache.active)
    (hf : TFr s.next s s') (hg : GrFr role ((A, p) :: stk) s s') :
    G0 body role src A p stk sd s' ∧ HF role A p stk s s' ∧ ES s' A p = ES s A p := by
  have hh : s'.cache.heads A p = s.cache.heads A p := hg.heads (A, p) (by simp)
  have hm : s'.cache.memo A p = s.cache.memo A p := hg.memo (A, p) (by simp)
  have hmem : ∀ X, role X = .member A → s'.cache.memo X p = s.cache.memo X p := fun X hX => hg.mem (A, p) (by simp) X hX
  have hes : ES s' A p = ES s A p := by simp [ES, hh]
  refine ⟨⟨ho, ha.trans h.active, by rw [hh]; exact h.head, by rw [hes]; exact h.es, h.am.mono h.ok.keys hf hm,
    fun X q k hX hx => h.pos X q k hX (by rw [← hmem X hX]; exact hx)⟩, ⟨hg.sub fun x hx => List.mem_cons_of_mem _ hx, hm,
      fun x hx => by rw [← hes]; exact hx, fun X hX _ => hmem X hX⟩, hes⟩

theorem CW.mono {A : R} {d : LRDecl R} {p : Nat} {stk : List (R × Nat)} {pend : List R} {s s' : TSt R}
    {sd : Option (Nat × Tree R)} (h : CW body role src A d p pend s sd) (hk : KeysOK s) (hf : TFr s.next s s')
    (hg : HF role A p stk s s') (hes : ES s' A p = ES s A p) : CW body role src A d p pend s' sd := by
  intro X hX hi hn hp
  rw [hes] at hn
  exact (h X hX hi hn hp).mono hk hf (hg.mem X hX hn)

section HT
variable {N : Nat} (hC : ∀ n, n < N → GClaim body role src n) (hG : GroupLR body role)
variable {A : R} {d : LRDecl R} (hd : role A = .head d) {p : Nat} {stk : List (R × Nat)} (hpos : ∀ x ∈ stk, x.2 ≤ p)

include hC hG hd hpos in
/-- A piece of the tail, after `p`. -/
theorem tail_step {sd : Option (Nat × Tree R)} {c : Expr R} (hc : c.GRefs role)
    (hcc : ∀ B, CallsLR body c B → CallsLR body d.tail B) {n : Nat} (hn : n < N) {pre : List Nat} {q0 : Nat} {s s' : TSt R}
    {b q ks} (hq : p < q0) (hl : G0 body role src A p stk sd s) (hpre : ∀ k ∈ pre, k < s.next)
    (h : TEv body src n c pre q0 s b q ks s') :
    GT body role src (pre.map s.tree) c q0 b q (ks.map s'.tree) ∧ G0 body role src A p stk sd s' ∧ HF role A p stk s s' ∧
      ES s' A p = ES s A p := by
  obtain ⟨h1, h2, h3⟩ := hC n hn c ((A, p) :: stk) pre q0 s b q ks s' hc hl.ok (GSafe.later (p := p) (by simpa using hpos) hq)
    (fun A' pa ha d' hd' B hB => by
      rw [hl.active] at ha
      obtain ⟨rfl, rfl⟩ : A = A' ∧ p = pa := by simpa using ha
      rw [hd] at hd'; cases hd'
      exact hG.noReentry A d hd B (Or.inr (hcc B hB))) (fun h => by rw [hl.active] at h; cases h) hpre h
  exact ⟨h1, hl.of_fr h2 (h.active hl.ok.keys) (h.fr hl.ok.keys) h3⟩

/-- Removing a rule from the evaluation set. -/
theorem G0.remove {sd : Option (Nat × Tree R)} {s : TSt R} (hl : G0 body role src A p stk sd s) (hnot : (A, p) ∉ stk)
    {h : Head R} (hh : s.cache.heads A p = some h) (r : R) :
    G0 body role src A p stk sd
      { s with next := s.next + 1, cache := s.cache.putHead A p { h with evalSet := h.evalSet.filter (· ≠ r) } } ∧
    GrFr role stk s
      { s with next := s.next + 1, cache := s.cache.putHead A p { h with evalSet := h.evalSet.filter (· ≠ r) } } ∧
    ES { s with next := s.next + 1, cache := s.cache.putHead A p { h with evalSet := h.evalSet.filter (· ≠ r) } } A p =
      (ES s A p).filter (· ≠ r) := by
  have hes : ∀ x ∈ h.evalSet.filter (· ≠ r), x ∈ h.involved := by
    obtain ⟨_, _, _, g⟩ := hl.ok.inv _ _ _ hh
    exact fun x hx => g x (List.mem_filter.mp hx).1
  have e1 : ES { s with next := s.next + 1, cache := s.cache.putHead A p { h with evalSet := h.evalSet.filter (· ≠ r) } } A p =
      (ES s A p).filter (· ≠ r) := by
    rw [ES.eq hh]
    simp [ES, Cache.putHead]
  refine ⟨⟨(hl.ok.putHead hh hes).alloc 1, hl.active, by simp [Cache.putHead], ?_, hl.am, hl.pos⟩,
    ⟨fun _ _ => rfl, fun x hx => ?_, fun _ _ _ _ => rfl⟩, e1⟩
  · rw [e1]
    exact fun hx => hl.es (List.mem_filter.mp hx).1
  · simp only [Cache.putHead]
    rw [if_neg]
    rintro ⟨h1, h2⟩
    exact hnot (by rw [← h1, ← h2]; exact hx)

theorem ES.put {s : TSt R} {r p' b q k ks} : ES (s.put r p' b q k ks) A p = ES s A p := rfl

theorem put_tree {s : TSt R} {r p' b q k ks} {j : Nat} (h : j ≠ k) : (s.put r p' b q k ks).tree j = s.tree j := by
  simp [TSt.put, TSt.setTree, h]

theorem put_tree_self {s : TSt R} {r : R} {p' b q k ks} : (s.put r p' b q k ks).tree k = Tree.mk r p' b q (ks.map s.tree) := by
  simp [TSt.put, TSt.setTree]

theorem put_memo {s : TSt R} {r r' : R} {p' q' b q k ks} (h : ¬ (r' = r ∧ q' = p')) :
    (s.put r p' b q k ks).cache.memo r' q' = s.cache.memo r' q' := by
  simp only [TSt.put, Cache.insert, if_neg h]

theorem put_memo_self {s : TSt R} {r : R} {p' b q k ks} : (s.put r p' b q k ks).cache.memo r p' = some (b, q, k) := by
  simp [TSt.put, Cache.insert]

/-- Recording a member. -/
theorem G0.putMember {sd : Option (Nat × Tree R)} {s : TSt R} (hl : G0 body role src A p stk sd s) (hnot : (A, p) ∉ stk)
    {d : LRDecl R} (hd : role A = .head d) {X : R} (hX : role X = .member A) {b q k ks} (hk : k < s.next)
    (hfresh : ∀ r' p' b' q', s.cache.memo r' p' ≠ some (b', q', k)) (hb : b = true → p < q) :
    G0 body role src A p stk sd (s.put X p b q k ks) ∧ GrFr role stk s (s.put X p b q k ks) ∧
    (s.put X p b q k ks).cache.memo A p = s.cache.memo A p := by
  have hAX : ¬ (A = X ∧ p = p) := by
    rintro ⟨rfl, _⟩
    rw [hX] at hd; cases hd
  refine ⟨⟨hl.ok.put hk hfresh (fun _ => by simp [MOK, hX]) (fun d h => by rw [hX] at h; cases h)
    (fun A' h => by rw [hX] at h; cases h; exact hl.head), hl.active, hl.head, hl.es, ?_, fun Y q' k' hY hm => ?_⟩,
    ⟨fun x hx => ?_, fun _ _ => rfl, fun x hx Y hY => ?_⟩, put_memo hAX⟩
  · cases sd with
    | none =>
      intro b' q' k' hm
      rw [put_memo hAX] at hm
      rw [put_tree (by rintro rfl; exact hfresh _ _ _ _ hm)]
      exact hl.am b' q' k' hm
    | some v =>
      obtain ⟨k', h1, h2, h3⟩ := hl.am
      refine ⟨k', by rw [put_memo hAX]; exact h1, ?_, h3⟩
      rw [put_tree]
      · exact h2
      · rintro rfl; exact hfresh _ _ _ _ h1
  · by_cases hYX : Y = X
    · subst hYX
      rw [put_memo_self] at hm
      simp only [Option.some.injEq, Prod.mk.injEq] at hm
      rw [← hm.2.1]; exact hb hm.1
    · rw [put_memo (fun h => hYX h.1)] at hm
      exact hl.pos Y q' k' hY hm
  · rw [put_memo]
    rintro ⟨h1, h2⟩
    obtain ⟨d', hd'⟩ := hl.ok.stk x (List.mem_cons_of_mem _ hx)
    rw [h1, hX] at hd'; cases hd'
  · rw [put_memo]
    rintro ⟨h1, h2⟩
    rw [h1, hX] at hY
    injection hY with hY
    exact hnot (by rw [hY, ← h2]; exact hx)

theorem MC.put {s : TSt R} {Y : R} {sd : Option (Nat × Tree R)} (h : MC body role src A p s Y sd) {X : R} {b q k ks}
    (hYX : Y ≠ X) (hfresh : ∀ r' p' b' q', s.cache.memo r' p' ≠ some (b', q', k)) :
    MC body role src A p (s.put X p b q k ks) Y sd := by
  have hne : ¬ (Y = X ∧ p = p) := fun h => hYX h.1
  cases sd with
  | none =>
    intro b' q' k' hm
    rw [put_memo hne] at hm
    rw [put_tree (by rintro rfl; exact hfresh _ _ _ _ hm)]
    exact h b' q' k' hm
  | some v =>
    obtain ⟨b', q', k', us, h1, h2, h3⟩ := h
    refine ⟨b', q', k', us, by rw [put_memo hne]; exact h1, ?_, h3⟩
    rw [put_tree (by rintro rfl; exact hfresh _ _ _ _ h1)]
    exact h2

theorem MC.self {s : TSt R} {X : R} {sd : Option (Nat × Tree R)} {b q k ks}
    (h : HTV body role src A p sd [] (body X) b q (ks.map s.tree)) :
    MC body role src A p (s.put X p b q k ks) X sd := by
  cases sd with
  | none =>
    intro b' q' k' hm
    rw [put_memo_self] at hm
    simp only [Option.some.injEq, Prod.mk.injEq] at hm
    obtain ⟨rfl, rfl, rfl⟩ := hm
    obtain ⟨rfl, _⟩ := h
    exact ⟨rfl, by rw [put_tree_self]; rfl⟩
  | some v => exact ⟨b, q, k, _, put_memo_self, put_tree_self, h⟩

/-- The value of a reference to a member just recorded. -/
theorem HTV.member {sd : Option (Nat × Tree R)} {X : R} (hX : role X = .member A) {pre : List (Tree R)} {inv b q us}
    (h : HTV body role src A p sd [] (body X) b q us) :
    HTV body role src A p sd pre (.varNameLR inv X) b q [Tree.mk X p b q us] := by
  cases sd with
  | none =>
    obtain ⟨rfl, _⟩ := h
    exact ⟨rfl, by simp [Tree.mk, Tree.Failed, Tree.span]⟩
  | some v => exact HV.member hX h

/-- The value of a reference to a member found in the memo table. -/
theorem HTV.memo {s : TSt R} {sd : Option (Nat × Tree R)} {X : R} (hX : role X = .member A) {pre : List Nat} {inv b q k}
    (h : MC body role src A p s X sd) (hm : s.cache.memo X p = some (b, q, k)) :
    HTV body role src A p sd (pre.map s.tree) (.varNameLR inv X) b q ((if k ∈ pre then [] else [k]).map s.tree) := by
  cases sd with
  | none =>
    obtain ⟨rfl, hf⟩ := h b q k hm
    refine ⟨rfl, ?_⟩
    split
    · simp
    · simpa using hf
  | some v =>
    obtain ⟨b', q', k', us, h1, h2, h3⟩ := h
    rw [hm] at h1
    simp only [Option.some.injEq, Prod.mk.injEq] at h1
    obtain ⟨rfl, rfl, rfl⟩ := h1
    split
    · next hin => exact HV.member_dup hX h3 (by rw [← h2]; exact List.mem_map_of_mem hin)
    · simp only [List.map_cons, List.map_nil, h2]
      exact HV.member hX h3

theorem HTV.seq_fail1 {sd : Option (Nat × Tree R)} {pre : List (Tree R)} {a c q ts}
    (h : HTV body role src A p sd pre a false q ts) : HTV body role src A p sd pre (.sequence a c) false p ts := by
  cases sd with
  | none => exact h
  | some v => exact HV.seq_fail1 h

theorem HTV.sub_ok {sd : Option (Nat × Tree R)} {pre : List (Tree R)} {a q ts}
    (h : HTV body role src A p sd pre a true q ts) : HTV body role src A p sd pre (.subexpression a) true q ts := by
  cases sd with
  | none => exact h
  | some v => exact HV.sub_ok h

theorem HTV.sub_fail {sd : Option (Nat × Tree R)} {pre : List (Tree R)} {a q ts}
    (h : HTV body role src A p sd pre a false q ts) : HTV body role src A p sd pre (.subexpression a) false p ts := by
  cases sd with
  | none => exact h
  | some v => exact HV.sub_fail h

theorem HTV.seq {sd : Option (Nat × Tree R)} {pre : List (Tree R)} {a c q b r ts us}
    (h : HTV body role src A p sd pre a true q ts) (h' : GT body role src (pre ++ ts) c q b r us) :
    HTV body role src A p sd pre (.sequence a c) b (if b then r else p) (ts ++ us) := by
  cases sd with
  | none => cases h.1
  | some v => cases b with
    | true => exact HV.seq_ok h h'
    | false => exact HV.seq_fail2 h h'

theorem HTV.choice_left {sd : Option (Nat × Tree R)} {pre : List (Tree R)} {a c q ts}
    (h : HTV body role src A p sd pre a true q ts) : HTV body role src A p sd pre (.orderedChoice a c) true q ts := by
  cases sd with
  | none => exact h
  | some v => exact HV.choice_left h

theorem HTV.choice_right {sd : Option (Nat × Tree R)} {pre : List (Tree R)} {a c q b r ts us}
    (h : HTV body role src A p sd pre a false q ts) (h' : HTV body role src A p sd (pre ++ ts) c b r us) :
    HTV body role src A p sd pre (.orderedChoice a c) b (if b then r else p) (ts ++ us) := by
  cases sd with
  | none =>
    obtain ⟨rfl, h''⟩ := h'
    refine ⟨rfl, fun t ht => ?_⟩
    rcases List.mem_append.mp ht with ht | ht
    · exact h.2 t ht
    · exact h'' t ht
  | some v => cases b with
    | true => exact HV.choice_right h h'
    | false => exact HV.choice_fail h h'

end HT
end
end PP
