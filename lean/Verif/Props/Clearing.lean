import Verif.Props.Layout
import Verif.Spec.Named
import Verif.Lemmas.ClearFits

/-! # C80: what the rules of the nodes of a returned tree can be, and that clearing it again changes nothing -/
set_option linter.unusedSectionVars false
namespace PP
variable {R U : Type} [DecidableEq R]

/-! ### Pruning twice -/

mutual
theorem prune_idem : ∀ t : Tree R, Tree.prune.pruneL (Tree.prune t) = Tree.prune t
  | .node r none kids => by rw [prune_none]; rfl
  | .node r (some (p, q)) kids => by
    rw [prune_some]
    split
    · rfl
    · rename_i h
      rw [Tree.prune.pruneL, prune_some, if_neg h, pruneL_idem kids]; rfl
theorem pruneL_idem : ∀ ts : List (Tree R), Tree.prune.pruneL (Tree.prune.pruneL ts) = Tree.prune.pruneL ts
  | [] => rfl
  | t :: ts => by rw [Tree.prune.pruneL, pruneL_append, prune_idem t, pruneL_idem ts]
end

/-- C80: clearing a returned tree again gives the same store, key by key, whatever the grammar. -/
theorem C80_clearing_again (P : Parser R U) (src : Source) (hh : P.HooksOK src) {n : Nat} {b : Bool} {q : Nat} {t : Publisher R}
    (h : parse P src n = .ok (b, q, t)) :
    (∃ N, ∀ m, N ≤ m → t.clearFalse P.grammar m = .ok t) ∧ ∀ m t', t.clearFalse P.grammar m = .ok t' → t' = t := by
  obtain ⟨ts, hr, hu, _, hl⟩ := parse_layout True P src hh (fun _ => .inl trivial) h
  have hn : t.nodes[0]? = some ⟨0, P.grammar, 0, 0, true, Tree.roots 2 (Tree.prune.pruneL ts)⟩ := by rw [hl]; rfl
  have hk : UnfL t.nodes (Tree.roots 2 (Tree.prune.pruneL ts)) (Tree.prune.pruneL ts) := by
    have := hu.unfL
    generalize hT : (Tree.node P.grammar (some (0, 0)) (Tree.prune.pruneL ts)) = T at this
    cases this with
    | cons h1 h2 h3 =>
      rw [hn] at h1
      obtain rfl := Option.some.inj h1
      injection hT with _ _ e
      rw [e] at h2 ⊢
      simpa using h2
  have hsize : t.nodes.length ≤ 4294967296 := by
    obtain ⟨_, _, _, h3⟩ := parse_len (lr := True) P src hh (fun _ => .inl trivial) h
    exact h3
  have hlen : t.nodes.length = 2 + Tree.size.sizeL (Tree.prune.pruneL ts) := by
    rw [hl]; simp only [List.length_cons, Tree.layout_length]; omega
  have hsame : ∀ m t', t.clearFalse P.grammar m = .ok t' → t' = t := by
    intro m t' hc
    have := clearFalse_layout P.grammar t hn rfl hk hc
    rw [pruneL_idem, ← hl] at this
    cases t; cases t'
    simp only at this
    rw [this]
  refine ⟨⟨Tree.htL (Tree.prune.pruneL ts), fun m hm => ?_⟩, hsame⟩
  obtain ⟨t', ht'⟩ := clearFalse_total P.grammar t hn rfl hk hm (by rw [pruneL_idem]; omega)
  rw [ht', hsame m t' ht']

/-! ### The rules in the tree -/

theorem Tree.Has.kid {t u : Tree R} (h : t.Has u) : u = t ∨ ∃ c ∈ t.kids, c.Has u := by
  cases h with
  | refl => exact .inl rfl
  | step h1 h2 => exact .inr ⟨_, h1, h2⟩

theorem follows_node {body : R → Expr R} {r : R} {s : Option (Nat × Nat)} {kids : List (Tree R)}
    (h : ∀ c ∈ kids, (body r).Invokes body c.rule ∧ c.Follows body) : (Tree.node r s kids).Follows body := by
  intro u hu c hc
  rcases hu.kid with rfl | ⟨d, hd, hu⟩
  · exact (h c hc).1
  · exact (h d hd).2 u hu c hc

/-- Every invocation in the forest of a run is of a rule its parent's body invokes. -/
theorem Run.invokes {lr : Prop} {body : R → Expr R} {src : Source} {e : Expr R} {p : Nat} {b : Bool} {q : Nat} {ts : List (Tree R)}
    (h : Run lr body src e p b q ts) : ∀ c ∈ ts, e.Invokes body c.rule ∧ c.Follows body := by
  induction h with
  | terminal_ok | terminal_fail | range_ok | range_fail | string_ok | string_fail | lr_none | lr_dup | hook_ret => simp
  | seq_ok _ _ ih1 ih2 | seq_fail2 _ _ ih1 ih2 =>
    intro c hc
    rcases List.mem_append.mp hc with h | h
    · exact ⟨.seqL (ih1 c h).1, (ih1 c h).2⟩
    · exact ⟨.seqR (ih2 c h).1, (ih2 c h).2⟩
  | seq_fail1 _ ih => exact fun c hc => ⟨.seqL (ih c hc).1, (ih c hc).2⟩
  | choice_left _ ih => exact fun c hc => ⟨.choiceL (ih c hc).1, (ih c hc).2⟩
  | choice_right _ _ ih1 ih2 | choice_fail _ _ ih1 ih2 =>
    intro c hc
    rcases List.mem_append.mp hc with h | h
    · exact ⟨.choiceL (ih1 c h).1, (ih1 c h).2⟩
    · exact ⟨.choiceR (ih2 c h).1, (ih2 c h).2⟩
  | and_ok _ ih | and_fail _ ih => exact fun c hc => ⟨.and (ih c hc).1, (ih c hc).2⟩
  | not_ok _ ih | not_fail _ ih => exact fun c hc => ⟨.not (ih c hc).1, (ih c hc).2⟩
  | opt_some _ ih | opt_none _ ih => exact fun c hc => ⟨.opt (ih c hc).1, (ih c hc).2⟩
  | star_stop _ ih => exact fun c hc => ⟨.star (ih c hc).1, (ih c hc).2⟩
  | star_step _ _ ih1 ih2 =>
    intro c hc
    rcases List.mem_append.mp hc with h | h
    · exact ⟨.star (ih1 c h).1, (ih1 c h).2⟩
    · exact ih2 c h
  | plus_ok _ _ ih1 ih2 =>
    intro c hc
    rcases List.mem_append.mp hc with h | h
    · exact ⟨.plus (ih1 c h).1, (ih1 c h).2⟩
    · refine ⟨?_, (ih2 c h).2⟩
      cases (ih2 c h).1 with
      | star h => exact .plus h
  | plus_fail _ ih => exact fun c hc => ⟨.plus (ih c hc).1, (ih c hc).2⟩
  | sub_ok _ ih | sub_fail _ ih => exact fun c hc => ⟨.sub (ih c hc).1, (ih c hc).2⟩
  | ref _ ih =>
    intro c hc
    obtain rfl := List.mem_singleton.mp hc
    exact ⟨.ref, follows_node ih⟩
  | inl _ ih => exact fun c hc => ⟨.inlined (ih c hc).1, (ih c hc).2⟩
  | ref_seed =>
    intro c hc
    obtain rfl := List.mem_singleton.mp hc
    exact ⟨.ref, follows_node (by simp)⟩
  | lr_seed =>
    intro c hc
    obtain rfl := List.mem_singleton.mp hc
    exact ⟨.refLR, follows_node (by simp)⟩
  | lr_node _ _ ih =>
    intro c hc
    obtain rfl := List.mem_singleton.mp hc
    exact ⟨.refLR, follows_node ih⟩
  | hook_call _ _ _ ih1 ih2 | hook_ok _ _ ih1 ih2 =>
    intro c hc
    rcases List.mem_append.mp hc with h | h
    · exact ⟨.hook (ih1 c h).1, (ih1 c h).2⟩
    · exact ih2 c h

/-- Pruning a forest keeps this. -/
theorem prune_invokes {body : R → Expr R} : ∀ (ts : List (Tree R)) (e : Expr R), (∀ c ∈ ts, e.Invokes body c.rule ∧ c.Follows body) →
    ∀ c ∈ Tree.prune.pruneL ts, e.Invokes body c.rule ∧ c.Follows body
  | [], _, _, c, hc => by simp [Tree.prune.pruneL] at hc
  | .node r s kids :: ts, e, h, c, hc => by
    rw [Tree.prune.pruneL, List.mem_append] at hc
    rcases hc with hc | hc
    · obtain ⟨h1, h2⟩ := h (.node r s kids) List.mem_cons_self
      cases s with
      | none => rw [prune_none] at hc; cases hc
      | some pq =>
        obtain ⟨p, q⟩ := pq
        rw [prune_some] at hc
        split at hc
        · cases hc
        · obtain rfl := List.mem_singleton.mp hc
          refine ⟨h1, follows_node (prune_invokes kids (body r) fun d hd => ⟨h2 _ (.refl _) d hd, fun u hu => h2 u (.step hd hu)⟩)⟩
    · exact prune_invokes ts e (fun d hd => h d (List.mem_cons_of_mem _ hd)) c hc

/-- C80: in a returned tree every invocation below the root is of a rule its parent's body invokes by name, directly or through inlined
rules; the root's own children are invocations of the start rule. -/
theorem C80_tree_follows_grammar (P : Parser R U) (src : Source) (hh : P.HooksOK src) {n : Nat} {b : Bool} {q : Nat} {t : Publisher R}
    (h : parse P src n = .ok (b, q, t)) {T : Tree R} (hT : t.Unfolds 0 T) : ∀ c ∈ T.kids, c.rule = P.grammar ∧ c.Follows P.body := by
  obtain ⟨ts, hr, hu, _, _⟩ := parse_layout True P src hh (fun _ => .inl trivial) h
  obtain rfl := hT.det hu
  intro c hc
  obtain ⟨h1, h2⟩ := prune_invokes ts _ hr.invokes c hc
  refine ⟨?_, h2⟩
  generalize hx : c.rule = x at h1
  cases h1; rfl

theorem layout_rule {S : R → Prop} : ∀ (ts : List (Tree R)) (k : Nat), (∀ c ∈ ts, ∀ u, c.Has u → S u.rule) → ∀ nd ∈ Tree.layout k ts, S nd.rule
  | [], _, _, nd, h => by simp [Tree.layout] at h
  | .node r s kids :: ts, k, hS, nd, h => by
    rw [Tree.layout, List.mem_cons, List.mem_append] at h
    rcases h with rfl | h | h
    · exact hS _ List.mem_cons_self _ (.refl _)
    · exact layout_rule kids _ (fun c hc u hu => hS _ List.mem_cons_self u (.step hc hu)) nd h
    · exact layout_rule ts _ (fun c hc => hS c (List.mem_cons_of_mem _ hc)) nd h

theorem follows_has {body : R → Expr R} {c u : Tree R} (h : c.Has u) : c.Follows body → u = c ∨ ∃ r, (body r).Invokes body u.rule := by
  induction h with
  | refl => exact fun _ => .inl rfl
  | step h1 h2 ih =>
    intro hf
    rcases ih (fun u hu => hf u (.step h1 hu)) with rfl | h
    · exact .inr ⟨_, hf _ (.refl _) _ h1⟩
    · exact .inr h

/-- C80: every node of the returned store is of the start rule or of a rule some body invokes by name. -/
theorem C80_store_rules (P : Parser R U) (src : Source) (hh : P.HooksOK src) {n : Nat} {b : Bool} {q : Nat} {t : Publisher R}
    (h : parse P src n = .ok (b, q, t)) : ∀ nd ∈ t.nodes, nd.rule = P.grammar ∨ ∃ r, (P.body r).Invokes P.body nd.rule := by
  obtain ⟨ts, hr, hu, _, hl⟩ := parse_layout True P src hh (fun _ => .inl trivial) h
  rw [hl]
  intro nd hnd
  rcases List.mem_cons.mp hnd with rfl | hnd
  · exact .inl rfl
  rcases List.mem_cons.mp hnd with rfl | hnd
  · exact .inl rfl
  · refine layout_rule (S := fun r => r = P.grammar ∨ ∃ r', (P.body r').Invokes P.body r) _ _ (fun c hc u hu' => ?_) nd hnd
    obtain ⟨h1, h2⟩ := C80_tree_follows_grammar P src hh h hu c hc
    rcases follows_has hu' h2 with rfl | h
    · exact .inl h1
    · exact .inr h

theorem Expr.Invokes.namesIn {body : R → Expr R} {S : R → Prop} (hb : ∀ r, (body r).NamesIn S) {s : R} {e : Expr R} (h : e.Invokes body s) :
    e.NamesIn S → S s := by
  induction h with
  | ref | refLR => exact id
  | inlined _ ih => exact fun _ => ih (hb _)
  | seqL _ ih | choiceL _ ih => exact fun h => ih h.1
  | seqR _ ih | choiceR _ ih => exact fun h => ih h.2
  | and _ ih | not _ ih | opt _ ih | star _ ih | plus _ ih | sub _ ih | hook _ ih => exact ih

/-- C80: a rule no body writes as a reference by name (it is unused, or inlined wherever it is used) has no node in any returned tree. -/
theorem C80_inlined_leave_no_node (P : Parser R U) (src : Source) (hh : P.HooksOK src) {n : Nat} {b : Bool} {q : Nat} {t : Publisher R}
    (h : parse P src n = .ok (b, q, t)) {s : R} (hg : s ≠ P.grammar) (hs : ∀ r, (P.body r).NamesIn (· ≠ s)) : ∀ nd ∈ t.nodes, nd.rule ≠ s := by
  rintro nd hnd rfl
  rcases C80_store_rules P src hh h nd hnd with e | ⟨r, e⟩
  · exact hg e
  · exact e.namesIn hs (hs r) rfl

/-- The rules of the nodes, from a check of the bodies. -/
theorem store_rules (P : Parser R U) (src : Source) (hh : P.HooksOK src) {n : Nat} {b : Bool} {q : Nat} {t : Publisher R}
    (h : parse P src n = .ok (b, q, t)) {S : R → Prop} (hg : S P.grammar) (hs : ∀ r, (P.body r).NamesIn S) : ∀ nd ∈ t.nodes, S nd.rule := by
  intro nd hnd
  rcases C80_store_rules P src hh h nd hnd with e | ⟨r, e⟩
  · rw [e]; exact hg
  · exact e.namesIn hs (hs r)

/-- Non-vacuity: `[ 1]` has no node for the white space, the digits or the element rule, and its tree clears to itself. -/
example : (match parse jsonParser ⟨bytesOf "[ 1]"⟩ 60 with | .ok (_, _, t) => t.nodes | _ => []) =
    [⟨0, .r_grammar, 0, 0, true, [2]⟩, ⟨1, .r_grammar, 0, 0, true, []⟩, ⟨2, .r_grammar, 0, 4, true, [3]⟩, ⟨3, .r_json, 0, 4, true, [4]⟩,
      ⟨4, .r_array, 0, 4, true, [5]⟩, ⟨5, .r_number, 2, 3, true, [6]⟩, ⟨6, .r_integer, 2, 3, true, []⟩] := by decide +kernel

example : ∀ r, (Json.body r).NamesIn (· ≠ .r_ws) := by intro r; cases r <;> decide +kernel

example : (match parse jsonParser ⟨bytesOf "[ 1]"⟩ 60 with
    | .ok (_, _, t) => decide (t.clearFalse .r_grammar 60 = .ok t) | _ => false) = true := by decide +kernel

end PP
