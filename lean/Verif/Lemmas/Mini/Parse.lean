import Verif.Lemmas.Mini.Closures
import Verif.Lemmas.Mini.Clear

/-! # parse.rs does what Model/Interp says -/
namespace PP.Mini
attribute [local congr] Res.bind_congr loopN_congr forN_congr
section
variable {R U : Type} {W : World R U} {n : Nat} {h : Heap}

theorem source_new_run (s : List UInt8) : run W.Q (n + 1) (.fn (some n!"Source") n!"new") [.str s] h = .ok (encSource ⟨s⟩) h := by
  rw [run]
  simp only [W.core.f_Source_new, Ast.Source.new]
  mini [castTo]
  rfl

theorem cache_new_run : run W.Q (n + 1) (.fn (some n!"BasicCache") n!"new") [] h = .ok (cacheVal W.vn [] [] none) h := by
  rw [run]
  simp only [W.core.f_BasicCache_new, Ast.BasicCache.new]
  mini [global]
  rfl

theorem context_new_run (x y : Nat) {g : R} (hv : W.vn g = n!"Grammar") (hg : W.Q.isVariant n!"Rules" n!"Grammar" = true)
    (hxy : x * y < 18446744073709551616) : run W.Q (n + 3) (.fn (some n!"BasicContext") n!"new") [.int x, .int y] h =
      .ok (ctxVal W.vn [] [] none (Publisher.new g)) (h ++ [encPub W.vn (.new g)]) := by
  rw [run]
  simp only [W.core.f_BasicContext_new, Ast.BasicContext.new]
  mini [cache_new_run, pub_new_run W n x y h hv hg hxy]
  rfl

theorem get_publisher_run (l l' act) (t : Publisher R) : run W.Q (n + 1) (.fn (some n!"BasicContext") n!"get_publisher") [ctxVal W.vn l l' act t] h =
    .ok (encPub W.vn t) h := by
  rw [run]
  simp only [W.core.f_BasicContext_get_publisher, Ast.BasicContext.get_publisher]
  have e : project n!"publisher" (ctxVal W.vn l l' act t) h = .ok (encPub W.vn t) h := rfl
  have e' : load (encPub W.vn t) h = .ok (encPub W.vn t) h := rfl
  mini [e, e']

variable [DecidableEq R] {us : User U} {fn : R → Name} {P : Parser R U} {d : Dir} {m : Nat}

theorem parse_sim (G : Gen W us fn P) (he : Enough d n (m + 1)) (ha : W.a = h.length + 1) (hu : W.u = h.length + 2) (hv : W.vn P.grammar = n!"Grammar")
    (hg : W.Q.isVariant n!"Rules" n!"Grammar" = true) {w : Val} (hU : W.ur P.userInit w)
    (hnew : ∀ n h, run W.Q (n + 1) (.fn (some n!"UserState") n!"new") [] h = .ok w h) (hfn : fn P.grammar = n!"grammar")
    (hc : W.Q.const? n!"grammar" = none) (hu' : W.Q.isUnit n!"grammar" = false) {k : Nat} (hk : W.Q.const? n!"RULES_SIZE" = some k) (hk' : k ≤ 4294967296) :
    Sim d (fun v _ x => v = .tuple [.bool x.1, .int x.2.1, encPub W.vn x.2.2]) (run W.Q n (.fn none n!"parse") [.str W.src.bytes] h) (parse P W.src m) := by
  refine Sim.shape 1 (he.fuel.le (by omega)) ?_
  have hf := he.fuel.sub 1
  have hs : (⟨W.src.bytes⟩ : Source) = W.src := rfl
  rw [run]
  simp only [W.core.f_parse, Ast.parse]
  mini [castTo]
  refine Sim.step (k := 1) (hf.le (by omega)) (fun m => source_new_run W.src.bytes) ?_
  mini [hs, castTo, global, hk]
  have hxy : W.src.bytes.length % 4294967296 * k < 18446744073709551616 := by
    have : W.src.bytes.length % 4294967296 < 4294967296 := Nat.mod_lt _ (by omega)
    have := Nat.mul_le_mul (Nat.le_sub_one_of_lt this) hk'
    omega
  refine Sim.step (k := 3) (hf.le (by omega)) (fun m => context_new_run _ k hv hg hxy) ?_
  refine Sim.step (k := 1) (hf.le (by omega)) (fun m => hnew m _) ?_
  mini [global, hg, hc, hu', W.core.tuple]
  have hcell : (h ++ [encPub W.vn (Publisher.new P.grammar)]).length = W.a := by rw [ha]; simp
  have hcell' : (h ++ [encPub W.vn (Publisher.new P.grammar)] ++ [ctxVal W.vn [] [] none (Publisher.new P.grammar)]).length = W.u := by rw [hu]; simp
  have hgood : W.Good (St.new P.grammar P.userInit) (h ++ [encPub W.vn (Publisher.new P.grammar)] ++
      [ctxVal W.vn [] [] none (Publisher.new P.grammar)] ++ [w] ++ [.uninit]) := by
    refine ⟨⟨[], [], ?_, fun _ _ => rfl, fun _ _ => rfl⟩, ⟨w, ?_, hU⟩, by simp [St.new, Publisher.new]⟩
    · rw [List.getElem?_append_left (by simp; omega), List.getElem?_append_left (by simp; omega), ← hcell]; simp; rfl
    · rw [List.getElem?_append_left (by simp; omega), ← hcell']; simp
  have hloc : (h ++ [encPub W.vn (Publisher.new P.grammar)] ++ [ctxVal W.vn [] [] none (Publisher.new P.grammar)] ++
      [w] ++ [.uninit])[W.u + 1]? = some .uninit := by
    rw [hu, List.getElem?_append_right (by simp)]; simp
  have hlen : (h ++ [encPub W.vn (Publisher.new P.grammar)] ++ [ctxVal W.vn [] [] none (Publisher.new P.grammar)] ++
      [w]).length = W.u + 1 := by rw [hu]; simp
  rw [hcell, hcell', hlen]
  have hau : W.a < W.u + 1 := by omega
  generalize h ++ [encPub W.vn (Publisher.new P.grammar)] ++ [ctxVal W.vn [] [] none (Publisher.new P.grammar)] ++
      [w] ++ [.uninit] = h₁ at hgood hloc ⊢
  have hexec : ∀ k, run W.Q (k + 1) (.fn none n!"_var_name") [.cell W.u, .variant n!"Rules" n!"Grammar", .cell W.a, .fn none n!"grammar"] h₁ =
      .ok (cloOf Ast._var_name [.cell W.u, encRule W.vn P.grammar, .cell W.a, .fn none (fn P.grammar)]) h₁ := by
    intro k
    rw [hfn, encRule, hv]
    exact make_run (F := Ast._var_name) W.core.f__var_name rfl rfl rfl k h₁
  refine Sim.step (k := 1) (hf.le (by omega)) hexec ?_
  mini [show ∀ h, load (follow (encSource W.src) h) h = .ok (encSource W.src) h from fun _ => rfl]
  unfold PP.parse
  refine Sim.result (closures_sim G m (n - 1) _ _ (CloRel.var P.grammar) (he.sub 1 (by omega) (by omega)) 0 0 _ h₁ hgood) ?_
  rintro _ h₂ ⟨b, q, st⟩ ⟨rfl, hg₂, hf₂⟩
  have hloc₂ : h₂[W.u + 1]? = some .uninit := by
    rw [hf₂.eq _ (List.getElem?_eq_some_iff.mp hloc).1 (by omega) (by omega)]; exact hloc
  mini [store_loc hloc₂]
  have hloc₃ := set_loc (.tuple [.bool b, .int q]) hloc₂
  have hg₃ := hg₂.set (i := W.u + 1) (by omega) (by omega) (.tuple [.bool b, .int q])
  generalize h₂.set (W.u + 1) (.tuple [.bool b, .int q]) = h₃ at hloc₃ hg₃ ⊢
  obtain ⟨l, l', hctx, -, -⟩ := hg₃.ctx
  have hinto : method n!"into_inner" (.cell W.a) (.cell W.a) [] h₃ = .ok (ctxVal W.vn l l' st.cache.active st.pub) h₃ := by
    simp [method, hctx]
  have hm1 : ∀ h, callMethod W.Q (run W.Q (n - 1)) n!"get_publisher" (ctxVal W.vn l l' st.cache.active st.pub) [] h =
      run W.Q (n - 1) (.fn (some n!"BasicContext") n!"get_publisher") [ctxVal W.vn l l' st.cache.active st.pub] h := fun h =>
    callMethod_val W.core.f_BasicContext_get_publisher (.inr rfl)
  have hm2 : ∀ h, callMethod W.Q (run W.Q (n - 1)) n!"clear_false" (encPub W.vn st.pub) [] h =
      run W.Q (n - 1) (.fn (some n!"BasicPublisher") n!"clear_false") [encPub W.vn st.pub] h := fun h =>
    callMethod_val W.core.f_BasicPublisher_clear_false (.inr rfl)
  mini [hinto, hm1]
  refine Sim.step (k := 1) (hf.le (by omega)) (fun m => get_publisher_run l l' st.cache.active st.pub) ?_
  mini [hm2]
  have hcf : ClearFuel d (n - 1 - 1) m := by
    cases d <;> simp only [Enough, ClearFuel] at he ⊢ <;> omega
  have hlen := hg₃.len
  refine Sim.result (Sim.shape 1 (hf.le (by omega)) (clear_false_sim hcf st.pub h₃ hv hg (Nat.lt_of_le_of_lt hlen (by decide)))) ?_
  rintro _ h₄ t ⟨rfl, hs₄⟩
  have hloc₄ : h₄[W.u + 1]? = some (.tuple [.bool b, .int q]) := by
    rw [hs₄ _ (List.getElem?_eq_some_iff.mp hloc₃).1]; exact hloc₃
  mini [loc_0 hloc₄, load_0 hloc₄, loc_1 hloc₄, load_1 hloc₄]
  exact .ok rfl
end
end PP.Mini
