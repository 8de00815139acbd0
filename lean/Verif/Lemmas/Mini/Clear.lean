import Verif.Lemmas.Mini.Publisher
import Verif.Lemmas.Mini.Kernels

/-! # `clear_false` does what Model/Publisher says -/
namespace PP.Mini
attribute [local congr] Res.bind_congr loopN_congr forN_congr

section
variable {R U : Type} {W : World R U} {n : Nat} {t : Publisher R} {h : Heap} {a : Nat} {p : List Step}

theorem get_node_run (W : World R U) (n : Nat) (t : Publisher R) (k : Nat) (h : Heap) :
    run W.Q (n + 2) (.fn (some n!"BasicPublisher") n!"get_node") [encPub W.vn t, encKey k] h =
      outRes (t.getNode k) fun nd => .ok (encNode W.vn nd) h := by
  rw [run]
  simp only [W.core.f_BasicPublisher_get_node, Ast.BasicPublisher.get_node]
  have e : project n!"nodes" (encPub W.vn t) h = .ok (.vec (t.nodes.map (encNode W.vn))) h := rfl
  mini [e, usize_from, element, loadV, List.getElem?_map, Publisher.getNode]
  cases hk : t.nodes[k]? with
  | none => rfl
  | some nd => simp only [Option.map_some, Out.ofOption, outRes]; mini; rfl

theorem len_run (W : World R U) (n : Nat) (t : Publisher R) (h : Heap) :
    run W.Q (n + 1) (.fn (some n!"BasicPublisher") n!"len") [encPub W.vn t] h = .ok (.int t.nodes.length) h := by
  rw [run]
  simp only [W.core.f_BasicPublisher_len, Ast.BasicPublisher.len]
  have e : project n!"nodes" (encPub W.vn t) h = .ok (.vec (t.nodes.map (encNode W.vn))) h := rfl
  mini [e, List.length_map]

theorem pub_new_run (W : World R U) (n : Nat) (x y : Nat) (h : Heap) {g : R} (hv : W.vn g = n!"Grammar")
    (hg : W.Q.isVariant n!"Rules" n!"Grammar" = true) (hxy : x * y < 18446744073709551616) :
    run W.Q (n + 2) (.fn (some n!"BasicPublisher") n!"new") [.int x, .int y] h =
      .ok (encPub W.vn (.new g)) (h ++ [encPub W.vn (.new g)]) := by
  rw [run]
  simp only [W.core.f_BasicPublisher_new, Ast.BasicPublisher.new]
  have hp : loadV (h ++ [encPub W.vn (⟨[]⟩ : Publisher R)]) (.ref h.length []) = some (encPub W.vn (⟨[]⟩ : Publisher R)) := by
    simp [loadV, getAt_nil]
  have hp' : loadV (upd (h ++ [encPub W.vn (⟨[]⟩ : Publisher R)]) h.length [] (encPub W.vn (.new g))) (.ref h.length []) = some (encPub W.vn (.new g)) :=
    load_upd hp
  have e : (.struct n!"BasicPublisher" [(n!"nodes", .vec [])] : Val) = encPub W.vn (⟨[]⟩ : Publisher R) := rfl
  have e' : (.variant n!"Rules" n!"Grammar" : Val) = encRule W.vn g := by simp [encRule, hv]
  mini [binop, hxy, e, callMethod_mut hp W.core.f_BasicPublisher_add_node rfl, global, hg, e', add_node_run hp]
  have e2 : (⟨[]⟩ : Publisher R).addNode g 0 0 true = .ok (0, .new g) := rfl
  simp only [e2, outRes]
  mini [load_place hp']
  simp [upd, putAt_nil]

/-- The loop of `clear_false_kernel` and `clear_false`. -/
theorem clear_loop {d : Dir} {step : Val → Heap → Res Val} {f : Publisher R → Nat → Out (Publisher R)} {call : Nat → Heap → Res Val}
    (h₁ : ∀ i h, step (encKey i) h = (call i h).bind fun _ h => .ok .unit h)
    (h₂ : ∀ i t h, loadV h (.ref a p) = some (encPub W.vn t) →
      Sim d (fun v h' t' => v = .unit ∧ h' = upd h a p (encPub W.vn t')) (call i h) (f t i)) :
    ∀ (l : List Nat) (t : Publisher R) (h : Heap), loadV h (.ref a p) = some (encPub W.vn t) →
      Sim d (fun v h' t' => v = .unit ∧ h' = upd h a p (encPub W.vn t')) (forN step (l.map encKey) h) (l.foldlM f t)
  | [], t, h, hp => .ok ⟨rfl, (upd_self hp).symm⟩
  | i :: l, t, h, hp => by
    rw [List.map_cons, forN, List.foldlM_cons, h₁]
    have hs := h₂ i t h hp
    generalize call i h = r at hs ⊢
    generalize f t i = o at hs ⊢
    cases hs with
    | oofL e => exact .oofL e
    | oofR e => exact .oofR e
    | panic => exact .panic
    | @ok v h' t' k =>
      obtain ⟨rfl, rfl⟩ := k
      refine (clear_loop h₁ h₂ l t' _ (load_upd hp)).mono ?_
      rintro v h' t' ⟨rfl, rfl⟩
      exact ⟨rfl, upd_upd hp⟩

theorem Sim.res {d : Dir} {β : Type} {K : Val → Heap → β → Prop} {x : Res Val} {o : Out β} (h : Sim d K x o) : Sim d K x.result o := by
  cases h with
  | oofL e => exact .oofL e
  | oofR e => exact .oofR e
  | panic => exact .panic
  | ok k => exact .ok k

/-- A run that ends, if the fuel suffices. -/
theorem Sim.step {Q : Prog} {d : Dir} {β : Type} {K : Val → Heap → β → Prop} {k n : Nat} {v w args h h'} {o : Out β} {f : Val → Heap → Res Val}
    (hf : Fuel d n k) (hs : ∀ m, run Q (m + k) v args h = .ok w h') (hn : Sim d K (f w h').result o) :
    Sim d K ((run Q n v args h).bind f).result o := by
  have hq : Sim d (fun a b (_ : Unit) => a = w ∧ b = h') (run Q n v args h) (.ok ()) := Sim.fuel hf fun m => by rw [hs m]; exact .ok ⟨rfl, rfl⟩
  generalize run Q n v args h = r at hq ⊢
  cases hq with
  | oofL e => exact .oofL e
  | ok k => obtain ⟨rfl, rfl⟩ := k; exact hn

/-- A run that is known, if the fuel suffices. -/
theorem Sim.runs {Q : Prog} {d : Dir} {α β : Type} {K : Val → Heap → β → Prop} {k n : Nat} {v args h} {o : Out α} {o' : Out β} {r : α → Res Val}
    (hf : Fuel d n k) (hs : ∀ m, run Q (m + k) v args h = outRes o r) (hk : Sim d K (outRes o r) o') : Sim d K (run Q n v args h) o' :=
  Sim.fuel hf fun m => by rw [hs m]; exact hk

theorem Sim.ofOut {d : Dir} {α : Type} {K : Val → Heap → α → Prop} {o : Out α} {r : α → Res Val} (ho : o ≠ .oof) (hk : ∀ x, o = .ok x → ∃ v h, r x = .ok v h ∧ K v h x) :
    Sim d K (outRes o r) o := by
  cases o with
  | oof => exact absurd rfl ho
  | panic => exact .panic
  | ok x => obtain ⟨v, h, e, k⟩ := hk x rfl; simp only [outRes, e]; exact .ok k

theorem getNode_ne (t : Publisher R) (k : Nat) : t.getNode k ≠ .oof := by
  unfold Publisher.getNode; cases t.nodes[k]? <;> simp [Out.ofOption]
theorem addNode_ne (t : Publisher R) (r x y b) : t.addNode r x y b ≠ .oof := by
  unfold Publisher.addNode; split <;> simp
theorem modify_ne (t : Publisher R) (k f) : t.modify k f ≠ .oof := by
  unfold Publisher.modify; split <;> simp
theorem connect_ne (t : Publisher R) (i j) : t.connect i j ≠ .oof := by
  unfold Publisher.connect; split
  · simp
  · exact modify_ne _ _ _

theorem nd_rule (vn : R → Name) (nd : Node R) (h : Heap) : project n!"rule" (encNode vn nd) h = .ok (encRule vn nd.rule) h := rfl
theorem nd_start (vn : R → Name) (nd : Node R) (h : Heap) : project n!"start_position" (encNode vn nd) h = .ok (.int nd.start) h := rfl
theorem nd_stop (vn : R → Name) (nd : Node R) (h : Heap) : project n!"end_position" (encNode vn nd) h = .ok (.int nd.stop) h := rfl
theorem nd_result (vn : R → Name) (nd : Node R) (h : Heap) : project n!"result" (encNode vn nd) h = .ok (.bool nd.result) h := rfl
theorem nd_children (vn : R → Name) (nd : Node R) (h : Heap) : project n!"children" (encNode vn nd) h = .ok (.vec (nd.children.map encKey)) h := rfl
theorem load_rule (vn : R → Name) (r : R) (h : Heap) : load (encRule vn r) h = .ok (encRule vn r) h := rfl
theorem follow_rule (vn : R → Name) (r : R) (h : Heap) : follow (encRule vn r) h = encRule vn r := rfl
theorem load_key (k : Nat) (h : Heap) : load (encKey k) h = .ok (encKey k) h := rfl
theorem follow_key (k : Nat) (h : Heap) : follow (encKey k) h = encKey k := rfl

theorem key_con (W : World R U) (k : Nat) (h : Heap) (r : Res Val) :
    (if W.Q.isTuple n!"Key" = true then Res.ok (Val.struct n!"Key" ((List.range [Val.int k].length).zip [Val.int k])) h else r) = .ok (encKey k) h := by
  rw [W.core.tuple]; rfl

/-- Fuel for `clear_false_kernel`. -/
def ClearFuel (d : Dir) (n m : Nat) : Prop :=
  match d with
  | .sound => n ≤ m
  | .complete => m + 3 ≤ n

theorem clear_kernel_sim {d : Dir} (self : Publisher R) : ∀ {n m : Nat}, ClearFuel d n m → ∀ (t : Publisher R) (h : Heap) (c i : Nat),
    loadV h (.ref a p) = some (encPub W.vn t) →
    Sim d (fun v h' t' => v = .unit ∧ h' = upd h a p (encPub W.vn t'))
      (run W.Q n (.fn (some n!"BasicPublisher") n!"clear_false_kernel") [encPub W.vn self, .ref a p, encKey c, encKey i] h)
      (self.clearFalseKernel m t c i)
  | 0, m, hf, t, h, c, i, hp => by
    cases d with
    | sound => unfold run; exact .oofL rfl
    | complete => exact absurd hf (by simp [ClearFuel])
  | n + 1, 0, hf, t, h, c, i, hp => by
    cases d with
    | sound => exact absurd hf (by simp [ClearFuel])
    | complete => exact .oofR rfl
  | n + 1, m + 1, hf, t, h, c, i, hp => by
    have hf' : ClearFuel d n m := by cases d <;> exact Nat.le_of_succ_le_succ hf
    have hk : Fuel d n 3 := by intro e; subst e; simp only [ClearFuel] at hf; omega
    rw [run]
    simp only [W.core.f_BasicPublisher_clear_false_kernel, Ast.BasicPublisher.clear_false_kernel]
    have e1 : ∀ (c : Call) (m : Name) {f : Fn} args h, W.Q.fn? (some n!"BasicPublisher") m = some f → f.recv = .ref →
      callMethod W.Q c m (encPub W.vn self) args h = c (.fn (some n!"BasicPublisher") m) (encPub W.vn self :: args) h :=
      fun c m f args h hf hr => callMethod_val hf (.inl hr)
    mini [e1 _ _ _ _ W.core.f_BasicPublisher_get_node rfl, e1 _ _ _ _ W.core.f_BasicPublisher_clear_false_kernel rfl]
    unfold Publisher.clearFalseKernel
    refine Sim.result (Sim.runs (fun e => Nat.le_trans (by decide) (hk e)) (fun m => get_node_run W m self i h)
      (K := fun v h' nd => v = encNode W.vn nd ∧ h' = h) (.ofOut (getNode_ne _ _) fun nd _ => ⟨_, _, rfl, rfl, rfl⟩)) ?_
    rintro _ h nd ⟨rfl, rfl⟩
    have hne : ∀ h : Heap, binop .ne (.int nd.start) (.int nd.stop) h = .ok (.bool (nd.start != nd.stop)) h := fun h => by
      simp [binop, valEq, atomEq, bne, BEq.beq]
    mini [nd_result, nd_start, nd_stop, hne]
    cases hb : nd.result
    · mini [Bool.false_and]
      exact .ok ⟨rfl, (upd_self hp).symm⟩
    · cases hb' : nd.start != nd.stop
      · mini [Bool.true_and, hb']
        exact .ok ⟨rfl, (upd_self hp).symm⟩
      · mini [Bool.true_and, hb', nd_rule, load_rule, nd_start, nd_stop, nd_result, hb, callMethod_mut hp W.core.f_BasicPublisher_add_node rfl]
        refine Sim.result (Sim.runs (fun e => Nat.le_trans (by decide) (hk e)) (fun m => add_node_run hp nd.rule nd.start nd.stop true)
          (K := fun v h' o => v = encKey o.1 ∧ h' = upd h a p (encPub W.vn o.2)) (.ofOut (addNode_ne _ _ _ _ _) fun nd _ => ⟨_, _, rfl, rfl, rfl⟩)) ?_
        rintro _ _ ⟨k, t₁⟩ ⟨rfl, rfl⟩
        have hp₁ := load_upd (w := encPub W.vn t₁) hp
        mini [callMethod_mut hp₁ W.core.f_BasicPublisher_connect rfl]
        refine Sim.result (Sim.runs hk (fun m => connect_run hp₁ c k)
          (K := fun v h' o => v = .unit ∧ h' = upd h a p (encPub W.vn o)) (.ofOut (connect_ne _ _ _) fun nd _ => ⟨_, _, rfl, rfl, upd_upd hp⟩)) ?_
        rintro _ _ t₂ ⟨rfl, rfl⟩
        have hp₂ := load_upd (w := encPub W.vn t₂) hp
        mini [nd_children, elements]
        refine (Sim.mono (clear_loop (W := W) (a := a) (p := p)
          (call := fun i h => run W.Q n (.fn (some n!"BasicPublisher") n!"clear_false_kernel") [encPub W.vn self, .ref a p, encKey k, encKey i] h)
          (fun i h => ?_) (fun i t h hp => clear_kernel_sim self hf' t h k i hp) nd.children t₂ _ hp₂) ?_).res
        · mini [follow_key, load_key]
        · rintro _ _ t' ⟨rfl, rfl⟩
          exact ⟨rfl, upd_upd hp⟩

/-- parser/src/publisher.rs:153 -/
theorem clear_false_sim {d : Dir} {n m : Nat} (hf : ClearFuel d n m) (self : Publisher R) (h : Heap) {g : R} (hv : W.vn g = n!"Grammar")
    (hg : W.Q.isVariant n!"Rules" n!"Grammar" = true) (hl : self.nodes.length < 18446744073709551616) :
    Sim d (fun v h' t' => v = encPub W.vn t' ∧ ∀ i, i < h.length → h'[i]? = h[i]?)
      (run W.Q (n + 1) (.fn (some n!"BasicPublisher") n!"clear_false") [encPub W.vn self] h) (self.clearFalse g m) := by
  have hk : Fuel d n 3 := by intro e; subst e; simp only [ClearFuel] at hf; omega
  rw [run]
  simp only [W.core.f_BasicPublisher_clear_false, Ast.BasicPublisher.clear_false]
  have e1 : ∀ (c : Call) (m : Name) {f : Fn} args h, W.Q.fn? (some n!"BasicPublisher") m = some f → f.recv = .ref →
    callMethod W.Q c m (encPub W.vn self) args h = c (.fn (some n!"BasicPublisher") m) (encPub W.vn self :: args) h :=
    fun c m f args h hf hr => callMethod_val hf (.inl hr)
  mini [e1 _ _ _ _ W.core.f_BasicPublisher_len rfl, e1 _ _ _ _ W.core.f_BasicPublisher_get_node rfl,
    e1 _ _ _ _ W.core.f_BasicPublisher_clear_false_kernel rfl]
  simp only [key_con]
  have hdiv : ∀ h : Heap, binop .div (.int self.nodes.length) (.int 4) h = .ok (.int (self.nodes.length / 4)) h := fun h => rfl
  refine Sim.step (fun e => Nat.le_trans (by decide) (hk e)) (fun m => len_run W m self h) ?_
  mini [hdiv]
  refine Sim.step (fun e => Nat.le_trans (by decide) (hk e)) (fun m => pub_new_run W m _ 1 h hv hg (by omega)) ?_
  have hs : ∀ i, i < h.length → i ≠ (h ++ [encPub W.vn (Publisher.new g)]).length ∧
      (h ++ [encPub W.vn (Publisher.new g)] ++ [encPub W.vn (Publisher.new g)])[i]? = h[i]? := fun i hi =>
    ⟨by simp; omega, by rw [List.getElem?_append_left (by simp; omega), List.getElem?_append_left hi]⟩
  generalize hh : h = h₀ at hs ⊢
  clear hh h
  generalize h₀ ++ [encPub W.vn (Publisher.new g)] = h₁ at hs ⊢
  have hp : loadV (h₁ ++ [encPub W.vn (Publisher.new g)]) (.ref h₁.length []) = some (encPub W.vn (Publisher.new g)) := by
    simp [loadV, getAt_nil]
  generalize h₁ ++ [encPub W.vn (Publisher.new g)] = h at hp hs ⊢
  generalize h₁.length = a at hp hs ⊢
  unfold Publisher.clearFalse
  refine Sim.result (Sim.runs (fun e => Nat.le_trans (by decide) (hk e)) (fun m => get_node_run W m self 0 h)
      (K := fun v h' nd => v = encNode W.vn nd ∧ h' = h) (.ofOut (getNode_ne _ _) fun nd _ => ⟨_, _, rfl, rfl, rfl⟩)) ?_
  rintro _ h nd ⟨rfl, rfl⟩
  mini [nd_result]
  cases hb : nd.result
  · mini [load_place hp]
    exact .ok ⟨rfl, fun i hi => (hs i hi).2⟩
  · mini [nd_rule, load_rule, nd_start, nd_stop, nd_result, hb, callMethod_mut hp W.core.f_BasicPublisher_add_node rfl]
    refine Sim.result (Sim.runs (fun e => Nat.le_trans (by decide) (hk e)) (fun m => add_node_run hp nd.rule nd.start nd.stop true)
          (K := fun v h' o => v = encKey o.1 ∧ h' = upd h a [] (encPub W.vn o.2)) (.ofOut (addNode_ne _ _ _ _ _) fun nd _ => ⟨_, _, rfl, rfl, rfl⟩)) ?_
    rintro _ _ ⟨k, t₁⟩ ⟨rfl, rfl⟩
    have hp₁ := load_upd (w := encPub W.vn t₁) hp
    mini [nd_children, elements]
    refine Sim.result' (clear_loop (W := W) (a := a) (p := [])
          (call := fun i h => run W.Q n (.fn (some n!"BasicPublisher") n!"clear_false_kernel") [encPub W.vn self, .ref a [], encKey 0, encKey i] h)
          (fun i h => ?_) (fun i t h hp => clear_kernel_sim self hf t h 0 i hp) nd.children t₁ _ hp₁) ?_
    · mini [follow_key, load_key]
    · rintro _ _ t' ⟨rfl, rfl⟩
      mini [load_place (load_upd hp₁)]
      exact .ok ⟨rfl, fun i hi => by rw [upd_other (hs i hi).1, upd_other (hs i hi).1, (hs i hi).2]⟩
end
end PP.Mini
