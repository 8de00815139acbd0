import Verif.Lemmas.Run

/-! # Unfolding the node store into trees -/
namespace PP
variable {R U : Type}

def Node.spanOf (nd : Node R) : Option (Nat × Nat) := if nd.result then some (nd.start, nd.stop) else none

/-- `UnfL nodes ks ts`: the keys `ks` unfold (through the child lists) to the trees `ts`. -/
inductive UnfL (nodes : List (Node R)) : List Nat → List (Tree R) → Prop where
  | nil : UnfL nodes [] []
  | cons {k nd cs ks ts} : nodes[k]? = some nd → UnfL nodes nd.children cs → UnfL nodes ks ts →
      UnfL nodes (k :: ks) (Tree.node nd.rule nd.spanOf cs :: ts)

theorem UnfL.append {nodes : List (Node R)} {ks ts ks' ts'} (h : UnfL nodes ks ts) (h' : UnfL nodes ks' ts') :
    UnfL nodes (ks ++ ks') (ts ++ ts') := by
  induction h with
  | nil => simpa
  | cons h1 h2 _ _ ih => exact .cons h1 h2 ih

/-- Same rule, children, outcome, and same span if successful. -/
structure Sim (nd nd' : Node R) : Prop where
  index : nd'.index = nd.index
  rule : nd'.rule = nd.rule
  children : nd'.children = nd.children
  span : nd'.spanOf = nd.spanOf

theorem Sim.refl (nd : Node R) : Sim nd nd := ⟨rfl, rfl, rfl, rfl⟩
theorem Sim.trans {a b c : Node R} (h1 : Sim a b) (h2 : Sim b c) : Sim a c :=
  ⟨h2.1.trans h1.1, h2.2.trans h1.2, h2.3.trans h1.3, h2.4.trans h1.4⟩

theorem UnfL.stable {nodes nodes' : List (Node R)} {D : Nat → Prop} {ks ts} (h : UnfL nodes ks ts)
    (hk : ∀ k ∈ ks, D k)
    (hcl : ∀ k nd, D k → nodes[k]? = some nd → ∀ c ∈ nd.children, D c)
    (hs : ∀ k nd, D k → nodes[k]? = some nd → ∃ nd', nodes'[k]? = some nd' ∧ Sim nd nd') :
    UnfL nodes' ks ts := by
  induction h with
  | nil => exact .nil
  | @cons k nd cs ks ts h1 h2 h3 ih1 ih2 =>
    have hD := hk k (by simp)
    obtain ⟨nd', e1, s⟩ := hs k nd hD h1
    rw [← s.rule, ← s.span]
    refine .cons e1 ?_ (ih2 fun k' hk' => hk k' (by simp [hk']))
    rw [s.children]
    exact ih1 (hcl k nd hD h1)

/-- Result of `modify`. -/
theorem Publisher.modify_eq {p : Publisher R} {k : Nat} {nd : Node R} (h : p.nodes[k]? = some nd)
    (f : Node R → Node R) : p.modify k f = .ok { p with nodes := p.nodes.set k (f nd) } := by
  simp [Publisher.modify, h]

end PP
