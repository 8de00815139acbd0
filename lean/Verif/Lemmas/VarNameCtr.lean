import Verif.Lemmas.Ops
import Verif.Lemmas.CoreCtr

/-! # Contracts of var_name.rs -/
set_option linter.unusedSectionVars false
namespace PP
variable {R U : Type} [DecidableEq R] {lr : Prop} {body : R → Expr R} {src : Source}

local notation "RunE" => fun e => Run lr body src e

/-- Finish node `k`, record it, connect it: the common tail of rule evaluation. -/
theorem Post.close {D D1 : Nat → Prop} {st st1 : St R U} {parent k : Nat} {nd : Node R} {r : R} {pos q : Nat} {b : Bool}
    {ts : List (Tree R)} {S : Bool → Nat → List (Tree R) → Prop}
    (hp : ¬ D parent) (hl : parent < st.pub.nodes.length)
    (hi : Inv lr body src D st) (hi1 : Inv lr body src D1 st1) (hs : Step lr D st D1 st1 parent [])
    (hk : Keep st st1) (hkey : st.pub.nodes.length ≤ k) (hkD : ¬ D1 k) (hnd : st1.pub.nodes[k]? = some nd)
    (hr : nd.rule = r) (hu : UnfL st1.pub.nodes nd.children ts) (hrun : Run lr body src (body r) pos b q ts)
    (hn : lr ∨ st.cache.memo r pos = none) (hS : S b q [Tree.mk r pos b q ts]) :
    Post lr body src D st parent S
      (((st1.updated k nd b pos q).createCacheEntry r b pos q k).connect parent k >>= fun st => .ok (b, q, st)) := by
  have hpos := hi.pos
  have hp1 : ¬ D1 parent := fun h => by
    rcases hs.fresh _ h with h | h
    · exact hp h
    · omega
  obtain ⟨hi2, hu2, hst2⟩ := hi1.finish hkD (by omega) hnd hu b pos q
  have hs2 := hs.finish (nd := nd) hi.bound hkey hl b pos q
  have hi3 := Inv.insert (r := r) (p := pos) (b := b) (q := q) hi2 (Or.inr rfl) hu2 (Or.inl ⟨ts, hrun, by rw [hr]⟩)
  have hs3 := Step.insert (r := r) (p := pos) (b := b) (q := q) (k := k) hs2 hn
  generalize hst3 : (st1.updated k nd b pos q).createCacheEntry r b pos q k = st3 at *
  have hkp : Keep st st3 := by
    subst hst3
    exact ⟨hk.active, hk.heads⟩
  have hu3 : UnfL st3.pub.nodes [k] [Tree.mk r pos b q ts] := by
    subst hst3; rw [← hr]; exact hu2
  have hl3 : parent < st3.pub.nodes.length := Nat.lt_of_lt_of_le hl hs3.len
  obtain ⟨ndp, hndp⟩ := exists_getElem? hl3
  have hp3 : ¬ (D1 parent ∨ parent = k) := by
    rintro (h | h)
    · exact hp1 h
    · omega
  obtain ⟨hi4, hs4⟩ := hi3.connected hp3 hndp (Or.inr rfl)
  rw [connect_eq hndp (by omega)]
  refine ⟨_, _, _, hi4, hs3.trans hs4, ⟨hkp.active, hkp.heads⟩, ?_, hs4.unf hi3 (ks := [k]) ?_ hu3, hS⟩ <;> simp

theorem memoOK_run {r : R} {p : Nat} {b : Bool} {q : Nat} {t : Tree R} (h : MemoOK lr body src r p b q t) :
    Run lr body src (.varName r) p b q [t] := by
  rcases h with ⟨ts, h, rfl⟩ | ⟨h, rfl, rfl, rfl⟩
  · exact .ref h
  · exact .ref_seed h

theorem memoOK_run_lr {inv : List R} {r : R} {p : Nat} {b : Bool} {q : Nat} {t : Tree R} (hlr : lr)
    (h : MemoOK lr body src r p b q t) : Run lr body src (.varNameLR inv r) p b q [t] := by
  rcases h with ⟨ts, h, rfl⟩ | ⟨h, rfl, rfl, rfl⟩
  · exact .lr_node hlr h
  · exact .lr_seed h

theorem memoOK_run_dup {inv : List R} {r : R} {p : Nat} {b : Bool} {q : Nat} {t : Tree R} (hlr : lr)
    (h : MemoOK lr body src r p b q t) : Run lr body src (.varNameLR inv r) p b q [] := by
  rcases h with ⟨ts, h, rfl⟩ | ⟨h, rfl, rfl, rfl⟩
  · exact .lr_dup hlr h
  · exact .lr_none h

theorem ctr_varName {f : PFn R U} {r : R} (h : Ctr lr body src f (RunE (body r))) :
    Ctr lr body src (varNameKernel r f) (RunE (.varName r)) := by
  intro D st parent pos hi hp hl
  unfold varNameKernel Cache.check
  cases hm : st.cache.memo r pos with
  | some v =>
    obtain ⟨b, q, k⟩ := v
    obtain ⟨hk, t, hu, hok⟩ := hi.memo r pos b q k hm
    obtain ⟨ndp, hndp⟩ := exists_getElem? hl
    obtain ⟨hi4, hs4⟩ := hi.connected hp hndp hk
    simp only [memoizedBehaviour]
    rw [connect_eq hndp (fun h => hp (h ▸ hk))]
    refine ⟨_, _, _, hi4, hs4, ⟨rfl, fun _ _ h e => ⟨h, e, fun _ => ⟨rfl, List.Sublist.refl _⟩⟩⟩, ?_,
      hs4.unf hi (ks := [k]) ?_ hu, memoOK_run hok⟩ <;> simpa
  | none =>
    simp only [defaultBehaviour]
    have hpos := hi.pos
    rcases reserve_cases st r with e | e
    · rw [e]; exact Or.inl rfl
    · rw [e]
      simp only [Out.bind_ok]
      have hi0 := hi.reserve r
      have hs0 := Step.reserve (parent := parent) hi r hl
      generalize hst0 : ({ st with pub := { nodes := st.pub.nodes ++ [blank st.pub.nodes.length r] } } : St R U) = st0 at *
      have hnb : st0.pub.nodes[st.pub.nodes.length]? = some (blank st.pub.nodes.length r) := by
        subst hst0; simp
      have hkD : ¬ D st.pub.nodes.length := fun h => by have := hi.bound _ h; omega
      have hpost := h D st0 st.pub.nodes.length pos hi0 hkD (lt_of_getElem?_some hnb)
      generalize hx : f st.pub.nodes.length pos st0 = x at *
      cases x with
      | oof => trivial
      | panic p => exact hpost
      | ok a =>
        obtain ⟨b, q, st1⟩ := a
        obtain ⟨D1, ks, ts, hi1, hs1, hk1, hks, hu1, hrun⟩ := hpost
        have hnd1 := hs1.par _ hnb
        simp only [Out.bind_ok]
        have := updateEntry_eq (st := st1.createCacheEntry r b pos q st.pub.nodes.length) (k := st.pub.nodes.length)
          hnd1 b pos q
        rw [this]
        refine Post.close (nd := _) hp hl hi hi1 (Step.outer hs0 hs1 (Nat.le_refl _) hp hl) ?_ (Nat.le_refl _) ?_ hnd1
          rfl (by simpa [blank] using hu1) hrun (Or.inr hm) ?_
        · subst hst0; exact ⟨hk1.active, hk1.heads⟩
        · intro hd
          rcases hs1.fresh _ hd with hd | hd
          · exact hkD hd
          · subst hst0; simp at hd; omega
        · exact Run.ref hrun

/-- Heads part of `Keep`, relative to the state in which a growth started. -/
def HeadsKept (sb st : St R U) : Prop :=
  ∀ r p h, sb.cache.heads r p = some h → ∃ h', st.cache.heads r p = some h' ∧
    (sb.cache.active ≠ none → h'.involved = h.involved ∧ h'.evalSet.Sublist h.evalSet)

theorem ctr_growthLoop {f : PFn R U} {r : R} {inv : List R} (hlr : lr) (hf : Ctr lr body src f (RunE (body r)))
    {Db : Nat → Prop} {sb : St R U} {parent pos : Nat} (hib : Inv lr body src Db sb) (hp : ¬ Db parent)
    (hl : parent < sb.pub.nodes.length)
    (hnew : sb.cache.active ≠ none → sb.cache.heads r pos = none) :
    ∀ (n : Nat) (last : Bool × Nat) (lk ck : Nat) (st : St R U) (D : Nat → Prop) (tl : Tree R) (nd : Node R),
      Inv lr body src D st → Step lr Db sb D st parent [] → HeadsKept sb st →
      st.cache.active = some (r, pos) →
      ¬ D ck → sb.pub.nodes.length ≤ ck → st.pub.nodes[ck]? = some nd → nd.rule = r → nd.children = [] →
      D lk → UnfL st.pub.nodes [lk] [tl] → MemoOK lr body src r pos last.1 last.2 tl →
      Post lr body src Db sb parent (Run lr body src (.varNameLR inv r) pos)
        (growthLoop r f parent pos sb.cache.active n last lk ck st) := by
  intro n
  induction n with
  | zero => intros; trivial
  | succ n ih =>
    intro last lk ck st D tl nd hi hs hh ha hck hckl hnd hndr hndc hlk hul hml
    have hposb := hib.pos
    unfold growthLoop
    obtain ⟨hd, hhd⟩ := hi.active r pos ha
    have hre : st.reinitializeEvalSet r pos =
        .ok { st with cache := st.cache.putHead r pos { hd with evalSet := hd.involved } } := by
      simp [St.reinitializeEvalSet, Cache.reinitializeEvalSet, hhd]
    rw [hre]
    simp only [Out.bind_ok]
    have hi1 := hi.setCache (st.cache.putHead r pos { hd with evalSet := hd.involved }) rfl (by
      intro r' p' e
      simp only [Cache.putHead] at e ⊢
      split
      · exact ⟨_, rfl⟩
      · exact hi.active r' p' e)
    have hs1 := hs.setCache (st.cache.putHead r pos { hd with evalSet := hd.involved }) rfl
    have hh1 : HeadsKept sb { st with cache := st.cache.putHead r pos { hd with evalSet := hd.involved } } := by
      intro r' p' h e
      simp only [Cache.putHead]
      split
      · next hrp =>
        refine ⟨_, rfl, fun hne => ?_⟩
        rw [hrp.1, hrp.2, hnew hne] at e; cases e
      · exact hh r' p' h e
    have ha1 : ({ st with cache := st.cache.putHead r pos { hd with evalSet := hd.involved } } : St R U).cache.active
        = some (r, pos) := ha
    have hnd1 : ({ st with cache := st.cache.putHead r pos { hd with evalSet := hd.involved } } : St R U).pub.nodes[ck]?
        = some nd := hnd
    have hul1 : UnfL ({ st with cache := st.cache.putHead r pos { hd with evalSet := hd.involved } } : St R U).pub.nodes
        [lk] [tl] := hul
    generalize hst1 : ({ st with cache := st.cache.putHead r pos { hd with evalSet := hd.involved } } : St R U) = st1 at *
    clear hst1
    have hpost := hf D st1 ck pos hi1 hck (lt_of_getElem?_some hnd1)
    generalize hx : f ck pos st1 = x at hpost
    cases x with
    | oof => trivial
    | panic p => exact hpost
    | ok a =>
      obtain ⟨b0, q0, st2⟩ := a
      obtain ⟨D2, ks, ts, hi2, hs2, hk2, hks, hu2, hrun⟩ := hpost
      have hs2' : Step lr Db sb D2 st2 parent [] := Step.outer hs1 hs2 hckl hp hl
      have hck2 : ¬ D2 ck := fun h => by
        rcases hs2.fresh ck h with h | h
        · exact hck h
        · have := lt_of_getElem?_some hnd1; omega
      have hnd2 := hs2.par nd hnd1
      rw [hndc, List.nil_append] at hnd2
      have hlk2 := hs2.mono lk hlk
      have hul2 : UnfL st2.pub.nodes [lk] [tl] := hs2.unf hi1 (by simpa using hlk) hul1
      have ha2 : st2.cache.active = some (r, pos) := by rw [hk2.active, ha1]
      have hh2 : HeadsKept sb st2 := by
        intro r' p' h e
        obtain ⟨h1, e1, i1⟩ := hh1 r' p' h e
        obtain ⟨h2, e2, i2⟩ := hk2.heads r' p' h1 e1
        have i2 := i2 (by rw [ha1]; simp)
        exact ⟨h2, e2, fun hne => ⟨i2.1.trans (i1 hne).1, i2.2.trans (i1 hne).2⟩⟩
      -- the key, result and state after `update_publisher_entry`
      have key : ∃ ck' b q st3 D3 t3,
          growthPick st2 r pos ck b0 q0 = (ck', b, q) ∧
          st2.updateEntry ck' b pos q = .ok st3 ∧ st3.cache = st2.cache ∧
          Inv lr body src D3 st3 ∧ Step lr Db sb D3 st3 parent [] ∧ D3 ck' ∧
          D3 lk ∧ UnfL st3.pub.nodes [lk] [tl] ∧ UnfL st3.pub.nodes [ck'] [t3] ∧ MemoOK lr body src r pos b q t3 := by
        unfold growthPick Cache.check
        cases hm : st2.cache.memo r pos with
        | none =>
          obtain ⟨hi3, hu3, hst3⟩ := hi2.finish hck2 (by omega) hnd2 hu2 b0 pos q0
          refine ⟨ck, b0, q0, _, _, _, rfl, updateEntry_eq hnd2 b0 pos q0, rfl, hi3,
            hs2'.finish hib.bound hckl hl b0 pos q0, Or.inr rfl, Or.inl hlk2, hst3 _ _ (by simpa using hlk2) hul2,
            hu3, Or.inl ⟨ts, hrun, by simp [hndr]⟩⟩
        | some v =>
          obtain ⟨mb, mq, mk⟩ := v
          obtain ⟨hmk, t, hut, hok⟩ := hi2.memo r pos mb mq mk hm
          obtain ⟨ndm, hndm⟩ := exists_getElem? (hi2.bound mk hmk)
          have hsp : ndm.spanOf = if mb then some (pos, mq) else none := by
            cases hut with
            | cons e1 _ _ =>
              rw [hndm] at e1
              obtain rfl := Option.some.inj e1
              rcases hok with ⟨ts', _, ht⟩ | ⟨_, rfl, rfl, ht⟩
              · simp only [Tree.mk, Tree.node.injEq] at ht; exact ht.2.1
              · simp only [Tree.mk, Tree.node.injEq] at ht; simpa using ht.2.1
          obtain ⟨hi3, hst3, hsim⟩ := hi2.rewrite hndm hsp
          exact ⟨mk, mb, mq, _, D2, t, rfl, updateEntry_eq hndm mb pos mq, rfl, hi3,
            hs2'.rewrite hndm hmk hp hl hsim, hmk, hlk2, hst3 _ _ hul2, hst3 _ _ hut, hok⟩
      obtain ⟨ck', b, q, st3, D3, t3, he1, he2, hc3, hi3, hs3, hck3, hlk3, hul3, huc3, hm3⟩ := key
      simp only [Out.bind_ok]
      rw [he1]
      simp only
      rw [he2]
      simp only [Out.bind_ok]
      have hl3 : parent < st3.pub.nodes.length := Nat.lt_of_lt_of_le hl hs3.len
      have hp3 : ¬ D3 parent := fun h => by
        rcases hs3.fresh _ h with h | h
        · exact hp h
        · omega
      have hh3 : HeadsKept sb st3 := by unfold HeadsKept; rw [hc3]; exact hh2
      split
      · -- stop growing
        obtain ⟨ndp, hndp⟩ := exists_getElem? hl3
        obtain ⟨hi4, hs4⟩ := hi3.connected hp3 hndp hlk3
        rw [connect_eq hndp (fun h => hp3 (h ▸ hlk3))]
        simp only [Out.bind_ok]
        have hul4 := hs4.unf hi3 (ks := [lk]) (by simpa using hlk3) hul3
        have hs4' := hs3.trans hs4
        have hh4 : HeadsKept sb (st3.connected parent ndp lk) := hh3
        generalize st3.connected parent ndp lk = st4 at *
        have hi5 : Inv lr body src D3 (st4.setActive sb.cache.active) :=
          hi4.setCache (st4.cache.setActive sb.cache.active) rfl (by
            intro r' p' e
            simp only [Cache.setActive] at e ⊢
            obtain ⟨h, e'⟩ := hib.active r' p' e
            obtain ⟨h', e'', _⟩ := hh4 r' p' h e'
            exact ⟨h', e''⟩)
        have hs5 : Step lr Db sb D3 (st4.setActive sb.cache.active) parent ([] ++ [lk]) :=
          hs4'.setCache (st4.cache.setActive sb.cache.active) rfl
        refine ⟨D3, _, [tl], hi5.insert (q := last.2) hlk3 hul4 hml, hs5.insert (Or.inl hlr), ⟨rfl, hh4⟩, ?_, hul4,
          memoOK_run_lr hlr hml⟩
        simpa using hlk3
      · -- grow once more
        rcases reserve_cases st3 r with e | e
        · rw [e]; exact Or.inl rfl
        · rw [e]
          simp only [Out.bind_ok]
          have hi4 := hi3.reserve r
          have hs4 := Step.reserve (parent := parent) hi3 r hl3
          refine ih (b, q) ck' _ _ D3 t3 (blank st3.pub.nodes.length r) hi4 (hs3.trans hs4) hh3 (by rw [← ha2, ← hc3])
            ?_ hs3.len (by simp) rfl rfl hck3 (hs4.unf hi3 (by simpa using hck3) huc3) hm3
          intro h
          have := hi3.bound _ h; omega

theorem ctr_growth {f : PFn R U} {r : R} {inv inv' : List R} (hlr : lr) (hf : Ctr lr body src f (RunE (body r)))
    {D : Nat → Prop} {st : St R U} {parent pos : Nat} (n : Nat) (hi : Inv lr body src D st) (hp : ¬ D parent)
    (hl : parent < st.pub.nodes.length) (hnew : st.cache.active ≠ none → st.cache.heads r pos = none) :
    Post lr body src D st parent (Run lr body src (.varNameLR inv r) pos)
      (growthFunction n inv' r f st.cache.active parent pos (st.setActive (some (r, pos)))) := by
  have hpos := hi.pos
  unfold growthFunction
  rcases reserve_cases (st.setActive (some (r, pos))) r with e | e
  · rw [e]; exact Or.inl rfl
  rw [e]
  simp only [Out.bind_ok]
  have hlen : (st.setActive (some (r, pos))).pub.nodes = st.pub.nodes := rfl
  rw [hlen]
  -- the state after the first reserve, with the original cache
  have hi1 := hi.reserve r
  have hs1 := Step.reserve (parent := parent) hi r hl
  have hnb : (st.pub.nodes ++ [blank st.pub.nodes.length r])[st.pub.nodes.length]? = some (blank st.pub.nodes.length r) := by
    simp
  have hkD : ¬ D st.pub.nodes.length := fun h => by have := hi.bound _ h; omega
  rw [updateEntry_eq (st := { st.setActive (some (r, pos)) with pub := _ }) hnb false 0 0]
  simp only [Out.bind_ok]
  obtain ⟨hi2, hu2, _⟩ := hi1.finish hkD (by omega) (nd := blank st.pub.nodes.length r) (by simpa using hnb)
    (ts := []) .nil false 0 0
  have hs2 := hs1.finish (nd := blank st.pub.nodes.length r) hi.bound (Nat.le_refl _) hl false 0 0
  generalize hst2 : ({ st with pub := { nodes := st.pub.nodes ++ [blank st.pub.nodes.length r] } } : St R U).updated
    st.pub.nodes.length (blank st.pub.nodes.length r) false 0 0 = st2 at *
  have hc2 : st2.cache = st.cache := by subst hst2; rfl
  have heq : ({ st.setActive (some (r, pos)) with
      pub := { nodes := st.pub.nodes ++ [blank st.pub.nodes.length r] } } : St R U).updated
      st.pub.nodes.length (blank st.pub.nodes.length r) false 0 0 = st2.setActive (some (r, pos)) := by
    subst hst2; rfl
  rw [heq]
  rcases reserve_cases (st2.setActive (some (r, pos))) r with e2 | e2
  · rw [e2]; exact Or.inl rfl
  rw [e2]
  simp only [Out.bind_ok]
  have hlen2 : (st2.setActive (some (r, pos))).pub.nodes = st2.pub.nodes := rfl
  rw [hlen2]
  have hl2 : parent < st2.pub.nodes.length := Nat.lt_of_lt_of_le hl hs2.len
  have hi3 := hi2.reserve r
  have hs3 := hs2.trans (Step.reserve (parent := parent) hi2 r hl2)
  have hu3 := (Step.reserve (parent := parent) hi2 r hl2).unf hi2 (ks := [st.pub.nodes.length]) (by simp) hu2
  have hi4 := hi3.setCache ((st2.cache.setActive (some (r, pos))).setHead pos r (toBTreeSet inv')) rfl (by
    intro r' p' e
    simp only [Cache.setHead, Cache.putHead, Cache.setActive, Option.some.injEq, Prod.mk.injEq] at e ⊢
    simp [e.1, e.2])
  have hs4 := hs3.setCache ((st2.cache.setActive (some (r, pos))).setHead pos r (toBTreeSet inv')) rfl
  refine ctr_growthLoop hlr hf hi hp hl hnew n (false, pos) _ _ _ _ (Tree.mk r pos false pos [])
    (blank st2.pub.nodes.length r) hi4 hs4 ?_ rfl ?_ hs2.len (by simp [St.setHead]) rfl rfl (Or.inr rfl) ?_ ?_
  · intro r' p' h e'
    simp only [St.setHead, St.setActive, Cache.setHead, Cache.putHead, Cache.setActive]
    split
    · next hrp =>
      refine ⟨_, rfl, fun hne => ?_⟩
      rw [hrp.1, hrp.2, hnew hne] at e'; cases e'
    · rw [hc2]; exact ⟨h, e', fun _ => ⟨rfl, List.Sublist.refl _⟩⟩
  · intro h
    have := hi2.bound _ h; omega
  · exact hu3
  · exact Or.inr ⟨hlr, rfl, rfl, rfl⟩

theorem ctr_varNameLR {f : PFn R U} {r : R} {inv : List R} (hlr : lr) (n : Nat)
    (hf : Ctr lr body src f (RunE (body r))) :
    Ctr lr body src (varNameLRKernel n inv r f) (RunE (.varNameLR inv r)) := by
  intro D st parent pos hi hp hl
  have hpos := hi.pos
  unfold varNameLRKernel shouldGrow
  cases ha : st.cache.active with
  | none =>
    have := ctr_growth (inv := inv) (inv' := inv) hlr hf (pos := pos) n hi hp hl (by simp [ha])
    rw [ha] at this
    simpa using this
  | some act =>
    obtain ⟨ar, ap⟩ := act
    obtain ⟨hd, hhd⟩ := hi.active ar ap ha
    -- the branch taken when no growth happens
    have branch : Post lr body src D st parent (Run lr body src (.varNameLR inv r) pos)
        (lrInner r f parent pos st) := by
      unfold lrInner
      rw [ha]
      simp only [Cache.ruleInEvalSet, hhd, Out.bind_ok]
      split
      · -- in the eval set
        rcases reserve_cases st r with e | e
        · rw [e]; exact Or.inl rfl
        rw [e]
        simp only [Out.bind_ok, St.removeFromEvalSet, Cache.removeFromEvalSet, hhd]
        have hi0 := hi.reserve r
        have hs0 := Step.reserve (parent := parent) hi r hl
        have hi1 := hi0.setCache (st.cache.putHead ar ap { hd with evalSet := hd.evalSet.filter (· ≠ r) }) rfl (by
          intro r' p' e
          simp only [Cache.putHead] at e ⊢
          split
          · exact ⟨_, rfl⟩
          · exact hi.active r' p' e)
        have hs1 := hs0.setCache (st.cache.putHead ar ap { hd with evalSet := hd.evalSet.filter (· ≠ r) }) rfl
        have hk0 : Keep st { st with
            pub := { nodes := st.pub.nodes ++ [blank st.pub.nodes.length r] }
            cache := st.cache.putHead ar ap { hd with evalSet := hd.evalSet.filter (· ≠ r) } } := by
          refine ⟨rfl, fun r' p' h e => ?_⟩
          simp only [Cache.putHead]
          split
          · next hrp =>
            rw [hrp.1, hrp.2, hhd] at e
            obtain rfl := Option.some.inj e
            exact ⟨_, rfl, fun _ => ⟨rfl, List.filter_sublist⟩⟩
          · exact ⟨h, e, fun _ => ⟨rfl, List.Sublist.refl _⟩⟩
        generalize hst1 : ({ st with
            pub := { nodes := st.pub.nodes ++ [blank st.pub.nodes.length r] }
            cache := st.cache.putHead ar ap { hd with evalSet := hd.evalSet.filter (· ≠ r) } } : St R U) = st1 at *
        have hnb : st1.pub.nodes[st.pub.nodes.length]? = some (blank st.pub.nodes.length r) := by
          subst hst1; simp
        have hlen1 : st1.pub.nodes.length = st.pub.nodes.length + 1 := by subst hst1; simp
        have hkD : ¬ D st.pub.nodes.length := fun h => by have := hi.bound _ h; omega
        have hpost := hf D st1 st.pub.nodes.length pos hi1 hkD (lt_of_getElem?_some hnb)
        generalize hx : f st.pub.nodes.length pos st1 = x at *
        cases x with
        | oof => trivial
        | panic p => exact hpost
        | ok a =>
          obtain ⟨b, q, st2⟩ := a
          obtain ⟨D1, ks, ts, hi2, hs2, hk2, hks, hu2, hrun⟩ := hpost
          have hnd2 := hs2.par _ hnb
          simp only [Out.bind_ok]
          rw [updateEntry_eq hnd2 b pos q]
          refine Post.close (nd := _) hp hl hi hi2 (Step.outer hs1 hs2 (Nat.le_refl _) hp hl) (hk0.trans hk2)
            (Nat.le_refl _) ?_ hnd2 rfl (by simpa [blank] using hu2) hrun (Or.inl hlr) ?_
          · intro hd
            rcases hs2.fresh _ hd with hd | hd
            · exact hkD hd
            · omega
          · exact Run.lr_node hlr hrun
      · unfold Cache.check
        cases hm : st.cache.memo r pos with
        | none => exact Post.ret hi (.lr_none hlr)
        | some v =>
          obtain ⟨b, q, k⟩ := v
          obtain ⟨hk, t, hu, hok⟩ := hi.memo r pos b q k hm
          obtain ⟨ndp, hndp⟩ := exists_getElem? hl
          simp only [connectIf_eq hndp, Out.bind_ok]
          split
          · exact Post.ret hi (memoOK_run_dup hlr hok)
          · obtain ⟨hi4, hs4⟩ := hi.connected hp hndp hk
            refine ⟨_, _, _, hi4, hs4, ⟨rfl, fun _ _ h e => ⟨h, e, fun _ => ⟨rfl, List.Sublist.refl _⟩⟩⟩, ?_,
              hs4.unf hi (ks := [k]) ?_ hu, memoOK_run_lr hlr hok⟩ <;> simpa
    simp only [Cache.checkHead]
    cases hh : st.cache.heads r pos with
    | some h => simpa using branch
    | none =>
      simp only [Cache.ruleInInvolvedSet, hhd, Out.bind_ok]
      split
      · next hx => simpa [hx] using branch
      · next hx =>
        have := ctr_growth (inv := inv) (inv' := inv) hlr hf (pos := pos) n hi hp hl (fun _ => hh)
        rw [ha] at this
        simpa [hx] using this

end PP
