import Verif.Lemmas.Mini.Store
import Verif.Props.Generated
import Verif.Props.Execute11

/-! # C97: the stores of the core — Source, BasicPublisher, BasicCache — used on their own, executed

For every program made of the core's files and the files of a crate, whatever calls of the public methods are made in whatever order. -/
namespace PP.Mini
open PP.Gen

/-- All three stores. -/
structure StoresWork (Q : Prog) : Prop where
  source : SourceWorks Q
  tree : TreeWorks Q
  cache : CacheWorks Q

theorem HasStores.work {Q : Prog} (H : HasStores Q) : StoresWork Q := ⟨sourceWorks H, treeWorks H, cacheWorks H⟩

section
variable {g : DGrammar} {ord : HashOrd} {n₀ : Nat} {c : GeneratedCode}

/-- C97: in every generated crate. -/
theorem C97_generated_crate_stores (hw : g.WF) (hsm : g.text.length < 82000000) (h : generateParser ord n₀ g.text = .ok (.code c))
    (hf : ∀ r ∈ g, r.rhs.Faithful) (hr : g.Runnable) : ∃ Q, readCrate (crateFiles c) = some Q ∧ StoresWork Q := by
  obtain ⟨body, funs, h1, h2, h3, h4, h5⟩ := generated_crate hw hsm h hf hr
  obtain ⟨start, hs⟩ := Runnable.exists_start hr
  refine ⟨progOf (plainUser Unit plainItems) false c.variants funs, ?_, (hasStores (plainUserSim (.plain body start)).ok h4 (h5 start hs).mem).work⟩
  rw [crateFiles, List.append_assoc]
  exact readCrate_append read_coreFilesOfParser (readCrate_append read_userFiles (by simp [readCrate, h2, h3, genOf]))

/-- C97: in the crate of the grammar-file parser. -/
theorem C97_dsl_stores : ∃ Q, readCrate (coreFilesOfParser ++ userFiles ++ [fileOf Texts.dslRules, fileOf Texts.dslParser]) = some Q ∧ StoresWork Q :=
  let ⟨Q, h, H⟩ := crateCheck_stores read_coreFilesOfParser read_userFiles (plainUserSim _) dslCrate
  ⟨Q, h, H.work⟩
end

/-- C97, example 1. -/
theorem C97_example1_stores : ∃ Q, readCrate (coreFiles ++ userFiles ++ [fileOf Texts.ex1Rules, fileOf Texts.ex1Parser]) = some Q ∧ StoresWork Q :=
  let ⟨Q, h, H⟩ := crateCheck_stores read_coreFiles read_userFiles (plainUserSim _) ex1Crate
  ⟨Q, h, H.work⟩

/-- C97, example 2. -/
theorem C97_example2_stores : ∃ Q, readCrate (coreFiles ++ userFiles ++ [fileOf Texts.ex2Rules, fileOf Texts.ex2Parser]) = some Q ∧ StoresWork Q :=
  let ⟨Q, h, H⟩ := crateCheck_stores read_coreFiles read_userFiles (plainUserSim _) ex2Crate
  ⟨Q, h, H.work⟩

/-- C97, example 3. -/
theorem C97_example3_stores : ∃ Q, readCrate (coreFiles ++ userFiles ++ [fileOf Texts.ex3Rules, fileOf Texts.ex3Parser]) = some Q ∧ StoresWork Q :=
  let ⟨Q, h, H⟩ := crateCheck_stores read_coreFiles read_userFiles (plainUserSim _) ex3Crate
  ⟨Q, h, H.work⟩

/-- C97, example 4. -/
theorem C97_example4_stores : ∃ Q, readCrate (coreFiles ++ userFiles ++ [fileOf Texts.ex4Rules, fileOf Texts.ex4Parser]) = some Q ∧ StoresWork Q :=
  let ⟨Q, h, H⟩ := crateCheck_stores read_coreFiles read_userFiles (plainUserSim _) ex4Crate
  ⟨Q, h, H.work⟩

/-- C97, example 5. -/
theorem C97_example5_stores : ∃ Q, readCrate (coreFiles ++ userFiles ++ [fileOf Texts.ex5Rules, fileOf Texts.ex5Parser]) = some Q ∧ StoresWork Q :=
  let ⟨Q, h, H⟩ := crateCheck_stores read_coreFiles read_userFiles (plainUserSim _) ex5Crate
  ⟨Q, h, H.work⟩

/-- C97, example 6. -/
theorem C97_example6_stores : ∃ Q, readCrate (coreFiles ++ userFiles ++ [fileOf Texts.ex6Rules, fileOf Texts.ex6Parser]) = some Q ∧ StoresWork Q :=
  let ⟨Q, h, H⟩ := crateCheck_stores read_coreFiles read_userFiles (plainUserSim _) ex6Crate
  ⟨Q, h, H.work⟩

/-- C97, example 7. -/
theorem C97_example7_stores : ∃ Q, readCrate (coreFiles ++ userFiles ++ [fileOf Texts.ex7Rules, fileOf Texts.ex7Parser]) = some Q ∧ StoresWork Q :=
  let ⟨Q, h, H⟩ := crateCheck_stores read_coreFiles read_userFiles (plainUserSim _) ex7Crate
  ⟨Q, h, H.work⟩

/-- C97, example 8. -/
theorem C97_example8_stores : ∃ Q, readCrate (coreFiles ++ userFiles ++ [fileOf Texts.ex8Rules, fileOf Texts.ex8Parser]) = some Q ∧ StoresWork Q :=
  let ⟨Q, h, H⟩ := crateCheck_stores read_coreFiles read_userFiles (plainUserSim _) ex8Crate
  ⟨Q, h, H.work⟩

/-- C97, example 9. -/
theorem C97_example9_stores : ∃ Q, readCrate (coreFiles ++ userFiles ++ [fileOf Texts.ex9Rules, fileOf Texts.ex9Parser]) = some Q ∧ StoresWork Q :=
  let ⟨Q, h, H⟩ := crateCheck_stores read_coreFiles read_userFiles (plainUserSim _) ex9Crate
  ⟨Q, h, H.work⟩

/-- C97, example 10. -/
theorem C97_example10_stores : ∃ Q, readCrate (coreFiles ++ userFiles ++ [fileOf Texts.ex10Rules, fileOf Texts.ex10Parser]) = some Q ∧ StoresWork Q :=
  let ⟨Q, h, H⟩ := crateCheck_stores read_coreFiles read_userFiles (plainUserSim _) ex10Crate
  ⟨Q, h, H.work⟩

/-- C97, example 11. -/
theorem C97_example11_stores : ∃ Q, readCrate (coreFiles ++ ex11UserFiles ++ [fileOf Texts.ex11Rules, fileOf Texts.ex11Parser]) = some Q ∧ StoresWork Q :=
  let ⟨Q, h, H⟩ := crateCheck_stores (us := ex11User) read_coreFiles read_ex11UserFiles ex11UserSim ex11Crate
  ⟨Q, h, H.work⟩

/-! ## Consequences for every history of calls -/

theorem change_get {i : Nat} {f : Node Name → Node Name} {ns t : List (Node Name)} (h : change i f ns = some t) (k : Nat) :
    t[k]? = (ns[k]?).map fun nd => if i = k then f nd else nd := by
  unfold change at h
  split at h
  · cases h
    rw [List.getElem?_modify]
    by_cases e : i = k
    · subst e; simp
    · simp [e]
  · cases h

/-- Nodes are never lost, and their keys and rules never change. -/
def NodesKept (ns t : List (Node Name)) : Prop :=
  ∀ (k : Nat) (nd : Node Name), ns[k]? = some nd → ∃ nd' : Node Name, t[k]? = some nd' ∧ nd'.index = nd.index ∧ nd'.rule = nd.rule

theorem NodesKept.trans {a b c : List (Node Name)} (h : NodesKept a b) (h' : NodesKept b c) : NodesKept a c := fun k nd e =>
  let ⟨_, e', i, r⟩ := h k nd e
  let ⟨nd'', e'', i', r'⟩ := h' k _ e'
  ⟨nd'', e'', i'.trans i, r'.trans r⟩

theorem change_keeps {i : Nat} {f : Node Name → Node Name} {ns t : List (Node Name)} (h : change i f ns = some t)
    (hf : ∀ nd, (f nd).index = nd.index ∧ (f nd).rule = nd.rule) : NodesKept ns t := by
  intro k nd e
  rw [change_get h k, e]
  refine ⟨_, rfl, ?_⟩
  split
  · exact hf nd
  · exact ⟨rfl, rfl⟩

/-- What a call does to the nodes: it adds one with the next key, or changes one, or nothing. -/
theorem effect_cases {c : TreeCall} {ns t : List (Node Name)} {v : Val} (h : c.effect ns = some (v, t)) :
    (∃ r x y b, c = .addNode r x y b ∧ v = encKey ns.length ∧ t = ns ++ [⟨ns.length, r, x, y, b, []⟩]) ∨
      (∃ i f, change i f ns = some t ∧ ∀ nd, (f nd).index = nd.index ∧ (f nd).rule = nd.rule) ∨ t = ns := by
  cases c with
  | addNode r x y b =>
    rw [TreeCall.effect] at h
    split at h
    · cases h; exact .inl ⟨r, x, y, b, rfl, rfl, rfl⟩
    · cases h
  | connect i j =>
    rw [TreeCall.effect] at h
    split at h
    · cases h
    · obtain ⟨t', h', e⟩ := Option.map_eq_some_iff.mp h
      cases e; exact .inr (.inl ⟨_, _, h', fun _ => ⟨rfl, rfl⟩⟩)
  | connectIfNotConnected i j =>
    obtain ⟨t', h', e⟩ := Option.map_eq_some_iff.mp h
    cases e; exact .inr (.inl ⟨_, _, h', fun nd => by split <;> exact ⟨rfl, rfl⟩⟩)
  | getNode i =>
    obtain ⟨t', h', e⟩ := Option.map_eq_some_iff.mp h
    cases e; exact .inr (.inr rfl)
  | len => cases h; exact .inr (.inr rfl)
  | _ =>
    obtain ⟨t', h', e⟩ := Option.map_eq_some_iff.mp h
    cases e; exact .inr (.inl ⟨_, _, h', fun _ => ⟨rfl, rfl⟩⟩)

theorem effects_keep : ∀ {cs : List TreeCall} {ns t : List (Node Name)} {vs : List Val}, effects cs ns = some (vs, t) →
    (∀ (k : Nat) (nd : Node Name), ns[k]? = some nd → nd.index = k) → NodesKept ns t ∧ ∀ (k : Nat) (nd : Node Name), t[k]? = some nd → nd.index = k := by
  intro cs
  induction cs with
  | nil => intro ns t vs h hi; cases h; exact ⟨fun k nd e => ⟨nd, e, rfl, rfl⟩, hi⟩
  | cons c cs ih =>
    intro ns t vs h hi
    rw [effects] at h
    simp only [Option.bind_eq_bind, Option.bind_eq_some_iff] at h
    obtain ⟨⟨v, s⟩, hc, ⟨vs', t'⟩, h', e⟩ := h
    cases e
    have key : NodesKept ns s ∧ ∀ (k : Nat) (nd : Node Name), s[k]? = some nd → nd.index = k := by
      rcases effect_cases hc with ⟨r, x, y, b, -, -, rfl⟩ | ⟨i, f, hf, hk⟩ | rfl
      · refine ⟨fun k nd e => ⟨nd, by rw [List.getElem?_append_left (List.getElem?_eq_some_iff.mp e).1, e], rfl, rfl⟩, fun k nd e => ?_⟩
        by_cases hl : k < ns.length
        · rw [List.getElem?_append_left hl] at e; exact hi k nd e
        · rw [List.getElem?_append_right (Nat.le_of_not_lt hl)] at e
          obtain ⟨h1, rfl⟩ := List.getElem?_eq_some_iff.mp e
          have : k = ns.length := by simp at h1; omega
          simp [this]
      · refine ⟨change_keeps hf hk, fun k nd e => ?_⟩
        rw [change_get hf k] at e
        obtain ⟨nd', e', e''⟩ := Option.map_eq_some_iff.mp e
        subst e''
        split
        · rw [(hk nd').1]; exact hi k nd' e'
        · exact hi k nd' e'
      · exact ⟨fun k nd e => ⟨nd, e, rfl, rfl⟩, hi⟩
    obtain ⟨k1, k2⟩ := ih h' key.2
    exact ⟨key.1.trans k1, k2⟩

/-- C97: whatever is called, if nothing panics then the root is still the root, and looking up a key gives the node of that key. -/
theorem C97_keys_stay_valid {Q : Prog} (H : TreeWorks Q) {size rules : Nat} (hs : size * rules < 18446744073709551616) {cs : List TreeCall} {n : Nat} {v : Val}
    {h : Heap} (hr : runTree Q (n + 3) size rules cs = .ok v h) : ∃ vs ns, v = .tuple [.vec vs, encPub id ⟨ns⟩] ∧ vs.length = cs.length ∧
      (∃ nd : Node Name, ns[0]? = some nd ∧ nd.rule = n!"Grammar") ∧ ∀ (k : Nat) (nd : Node Name), ns[k]? = some nd → nd.index = k := by
  cases he : effects cs [rootNode] with
  | none => rw [H.panics size rules cs n hs he] at hr; cases hr
  | some x =>
    obtain ⟨vs, ns⟩ := x
    obtain ⟨h', e⟩ := H.ok size rules cs n vs ns hs he
    rw [hr] at e; cases e
    obtain ⟨h1, h2⟩ := effects_keep he (by
      intro k nd e
      cases k with
      | zero => cases e; rfl
      | succ k => simp at e)
    obtain ⟨nd, e, -, r⟩ := h1 0 rootNode rfl
    refine ⟨vs, ns, rfl, ?_, ⟨nd, e, r⟩, h2⟩
    clear h1 h2 e r hr
    generalize [rootNode] = l at he
    induction cs generalizing l vs with
    | nil => cases he; rfl
    | cons c cs ih =>
      rw [effects] at he
      simp only [Option.bind_eq_bind, Option.bind_eq_some_iff] at he
      obtain ⟨⟨v, s⟩, hc, ⟨vs', t'⟩, h', e⟩ := he
      cases e
      rw [List.length_cons, List.length_cons, ih _ _ h']

theorem effects_nodup : ∀ {cs : List TreeCall} {ns t : List (Node Name)} {vs : List Val}, effects cs ns = some (vs, t) →
    (∀ i j, .connect i j ∉ cs) → (∀ nd ∈ ns, nd.children.Nodup) → ∀ nd ∈ t, nd.children.Nodup := by
  intro cs
  induction cs with
  | nil => intro ns t vs h _ hn; cases h; exact hn
  | cons c cs ih =>
    intro ns t vs h hno hn
    rw [effects] at h
    simp only [Option.bind_eq_bind, Option.bind_eq_some_iff] at h
    obtain ⟨⟨v, s⟩, hc, ⟨vs', t'⟩, h', e⟩ := h
    cases e
    refine ih h' (fun i j hm => hno i j (List.mem_cons_of_mem _ hm)) ?_
    have key : ∀ {i : Nat} {f : Node Name → Node Name}, change i f ns = some s → (∀ nd, nd.children.Nodup → (f nd).children.Nodup) → ∀ nd ∈ s, nd.children.Nodup := by
      intro i f hf hk nd hm
      obtain ⟨k, hk'⟩ := List.mem_iff_getElem?.mp hm
      rw [change_get hf k] at hk'
      obtain ⟨nd', e', rfl⟩ := Option.map_eq_some_iff.mp hk'
      have := hn nd' (List.mem_of_getElem? e')
      split
      · exact hk nd' this
      · exact this
    cases c with
    | addNode r x y b =>
      rw [TreeCall.effect] at hc
      split at hc
      · cases hc
        intro nd hm
        rcases List.mem_append.mp hm with hm | hm
        · exact hn nd hm
        · cases List.mem_singleton.mp hm; exact List.nodup_nil
      · cases hc
    | connect i j => exact absurd (List.mem_cons_self ..) (hno i j)
    | connectIfNotConnected i j =>
      obtain ⟨t', h', e⟩ := Option.map_eq_some_iff.mp hc
      cases e
      refine key h' fun nd hd => ?_
      split
      · exact hd
      · rename_i hj
        refine List.nodup_append.mpr ⟨hd, by simp, fun a ha b hb e => hj ?_⟩
        rw [List.mem_singleton.mp hb] at e
        exact e ▸ ha
    | clearChildren i =>
      obtain ⟨t', h', e⟩ := Option.map_eq_some_iff.mp hc
      cases e; exact key h' fun _ _ => List.nodup_nil
    | getNode i => obtain ⟨t', h', e⟩ := Option.map_eq_some_iff.mp hc; cases e; exact hn
    | len => cases hc; exact hn
    | _ =>
      obtain ⟨t', h', e⟩ := Option.map_eq_some_iff.mp hc
      cases e; exact key h' fun _ hd => hd

/-- C97: without `connect`, no node ever gets a child twice, whatever else is called. -/
theorem C97_no_duplicate_children {Q : Prog} (H : TreeWorks Q) {size rules : Nat} (hs : size * rules < 18446744073709551616) {cs : List TreeCall} {n : Nat}
    (hno : ∀ i j, .connect i j ∉ cs) {v : Val} {h : Heap} (hr : runTree Q (n + 3) size rules cs = .ok v h) :
    ∃ vs ns, v = .tuple [.vec vs, encPub id ⟨ns⟩] ∧ ∀ nd ∈ ns, nd.children.Nodup := by
  cases he : effects cs [rootNode] with
  | none => rw [H.panics size rules cs n hs he] at hr; cases hr
  | some x =>
    obtain ⟨vs, ns⟩ := x
    obtain ⟨h', e⟩ := H.ok size rules cs n vs ns hs he
    rw [hr] at e; cases e
    exact ⟨vs, ns, rfl, effects_nodup he hno (by intro nd hm; cases List.mem_singleton.mp hm; exact List.nodup_nil)⟩

/-! ### The hypotheses are met -/

/-- Two nodes are added and connected, one twice in vain, their positions set, and a key looked up. -/
example : effects [.addNode 7 1 2 false, .addNode 8 2 3 true, .connect 1 2, .connectIfNotConnected 1 2, .connectIfNotConnected 0 1, .setStart 1 4, .setStop 1 9,
    .setResult 1 true, .getNode 1, .len] [rootNode] =
    some ([encKey 1, encKey 2, .unit, .unit, .unit, .unit, .unit, .unit, encNode id ⟨1, 7, 4, 9, true, [2]⟩, .int 3],
      [{ rootNode with children := [1] }, ⟨1, 7, 4, 9, true, [2]⟩, ⟨2, 8, 2, 3, true, []⟩]) := rfl

/-- A node connected to itself, or a key that does not exist: panics. -/
example : effects [.addNode 7 1 2 false, .connect 1 1] [rootNode] = none ∧ effects [.setStart 3 0] [rootNode] = none := ⟨rfl, rfl⟩

/-- The same, executed, in the crate of example 1. -/
example : ∃ Q, readCrate (coreFiles ++ userFiles ++ [fileOf Texts.ex1Rules, fileOf Texts.ex1Parser]) = some Q ∧
    ∃ h, runTree Q 3 10 20 [.addNode 7 1 2 false, .connectIfNotConnected 0 1, .connectIfNotConnected 0 1, .getNode 0] =
      .ok (.tuple [.vec [encKey 1, .unit, .unit, encNode id { rootNode with children := [1] }],
        encPub id ⟨[{ rootNode with children := [1] }, ⟨1, 7, 1, 2, false, []⟩]⟩]) h := by
  obtain ⟨Q, h, H⟩ := C97_example1_stores
  exact ⟨Q, h, H.tree.ok 10 20 _ 0 _ _ (by decide) rfl⟩

/-- The answers of a cache: the second entry for the same rule and position wins; a rule removed from a head's eval set is still involved, and comes back. -/
example : AllAnswer [] [.check 1 0, .write (.insert 1 true 0 3 5), .write (.insert 1 false 0 0 6), .check 1 0, .check 1 2, .write (.setHead 0 1 [1, 2]),
      .write (.remove (1, 0) 2), .inEval (1, 0) 2, .involved (1, 0) 2, .write (.reinitialize 1 0), .inEval (1, 0) 2, .inEval (2, 0) 1]
    none := by
  refine .later (v := .none) rfl <| .later (v := .unit) rfl <| .later (v := .unit) rfl <| .later (v := .some (.tuple [.bool false, .int 0, encKey 6])) rfl <|
    .later (v := .none) rfl <| .later (v := .unit) rfl <| .later (v := .unit) rfl <| .later (v := .bool false) rfl <| .later (v := .bool true) rfl <|
    .later (v := .unit) rfl <| .later (v := .bool true) rfl <| .panic rfl

/-- The head itself, after the removal of 2 and of the head from its eval set; there is none for rule 2. -/
example : AllAnswer [] [.write (.setHead 0 1 [1, 2, 3]), .write (.remove (1, 0) 2), .hasHead 1 0, .hasHead 2 0]
    (some [.unit, .unit, .some (headVal 1 0 [1, 2, 3] [1, 3]), .none]) :=
  .ok rfl <| .ok rfl <| .ok ⟨[1, 3], rfl, fun x => by
    refine ⟨fun h => ?_, fun h => ?_⟩
    · rcases List.mem_pair.mp h with rfl | rfl <;> exact ⟨by decide, rfl⟩
    · obtain ⟨h, h'⟩ := h
      have : x ≠ 2 := by rintro rfl; cases h'
      simpa [this] using h⟩ <| .ok rfl .nil

/-- A source of four bytes, among them a character of two bytes: its parts. -/
example (Q : Prog) (H : SourceWorks Q) : ∃ h, runSource Q 1 (utf8Of "aéb") n!"get_string" [.int 1, .int 3] = .ok (.some (.str (utf8Of "é"))) h :=
  H.get_string (utf8Of "aéb") 0 1 3 (by decide) (by decide +kernel) (.inr (by decide +kernel)) (.inr (by decide +kernel))
example (Q : Prog) (H : SourceWorks Q) : runSource Q 1 (utf8Of "aéb") n!"get_string" [.int 1, .int 2] = .panic :=
  H.get_string_panics (utf8Of "aéb") 0 1 2 (by decide +kernel) (by decide +kernel) (by
    rintro ⟨-, -, h | h⟩
    · cases h
    · exact absurd (h 169 (by decide +kernel)) (by decide))

end PP.Mini
