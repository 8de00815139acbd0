import Verif.Lemmas.Rs.CycleFix

/-! # The detector of left recursion: `LeftRecursionDetector::new` -/
namespace PP.Rs
open PP.Gen

variable {p : Publisher Dsl} {src : Bytes}

theorem mergeLoop_good {U : List Bytes} {o : HashOrd} (n : Nat) : ∀ l pass m m', GoodMap U m → mergeLoop o n l pass m = .ok m' → GoodMap U m' := by
  induction n with
  | zero => intro l pass m m' _ h; cases h
  | succ n ih =>
    intro l pass m m' hm h
    rw [mergeLoop] at h
    split at h
    · cases h; exact hm
    · obtain ⟨m1, h1, h⟩ := bind_oks h
      exact ih _ _ _ _ (merge_good hm h1) h

theorem build_good {o : HashOrd} {n : Nat} {t : RuleCallTree} (h : RuleCallTree.build p src o n = .ok t) : GoodMap (univ p src) t.involved := by
  rw [RuleCallTree.build] at h
  obtain ⟨nd, hn, h⟩ := bind_oks h
  obtain ⟨t1, h1, h⟩ := bind_oks h
  obtain ⟨l2, h2, h⟩ := bind_oks h
  obtain ⟨t3, h3, h⟩ := bind_oks h
  obtain ⟨l4, h4, h⟩ := bind_oks h
  obtain ⟨i, h5, h⟩ := bind_oks h
  cases h
  have g1 := walk_good n nd _ t1 ⟨by simp [RuleCallTree.empty, Map.keys], .nil, .nil, .nil, .nil⟩ h1
  have g2 : GoodTree (univ p src) { t1 with notLR := l2 } := ⟨g1.rulesKeys, g1.referenced, markLoop_good g1.referenced n _ _ _ _ g1.notLR h2, g1.leftMost, g1.involved⟩
  have g3 := leftMostAll_good g2 h3
  have g4 : GoodTree (univ p src) { t3 with notLR := l4 } := ⟨g3.rulesKeys, g3.referenced, markLoop_good g3.leftMost n _ _ _ _ g3.notLR h4, g3.leftMost, g3.involved⟩
  exact mergeLoop_good n _ _ _ _ (create_good (o := o) g4).involved h5

theorem univ_ascii (hs : ascii src = true) : ∀ x ∈ univ p src, ascii x = true := by
  intro x hx
  obtain ⟨nd, -, h⟩ := List.mem_filterMap.1 hx
  unfold innerString at h
  split at h
  · cases h
    rename_i h
    obtain ⟨u, hu, h⟩ := bind_oks h
    split at h
    · cases h
    · exact strSlice_ascii (strSlice_ascii hs hu) h
  · cases h

/-- The value that `LeftRecursionDetector::new` makes. -/
def encDetector (t : RuleCallTree) : Val := .struct n!"LeftRecursionDetector" [(n!"rule_call_tree", encRct t)]

theorem sets_detector (hs : ascii src = true) {o : HashOrd} {n : Nat} {t : RuleCallTree} (h : RuleCallTree.build p src o n = .ok t) : Sets (encDetector t) t.involved where
  def_ := ⟨_, rfl, rfl⟩
  ascii x s hx c hc := univ_ascii hs c (((build_good h).get hx).2 c hc)

variable {ord : List Val → List Val} (hord : ∀ l, (ord l).Perm l)

theorem call_detector (hs : ascii src = true) (hB : p.nodes.length < 4294967296) (n : Nat) {m : Nat} (hm : n + 6 ≤ m) :
    (callN (World.gen ord) m Ast.LeftRecursionDetector.new [encTree p, .str src]).Sim (RuleCallTree.build p src (ordOf hord) n) fun t => .ok (encDetector t) [encTree p, .str src] := by
  rw [callN_succ rfl rfl (by omega)]
  have H := call_rct hord p hs hB n (m := m - 1) (by omega)
  cases ho : RuleCallTree.build p src (ordOf hord) n with
  | oof => trivial
  | panic q =>
    rw [ho] at H
    simp only [CRes.Sim] at H
    rs [Ast.LeftRecursionDetector.new, H]
    rfl
  | ok t =>
    rw [ho] at H
    simp only [CRes.Sim] at H
    rs [Ast.LeftRecursionDetector.new, H]
    rfl

end PP.Rs
