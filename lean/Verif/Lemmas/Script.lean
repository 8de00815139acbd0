import Verif.Spec.Script
import Verif.Props.Runner

/-! # Runs of the command line program, one after another -/
namespace PP.Run
open PP.Gen
variable {ord : HashOrd} {fuel : Nat} {c : Config} {fs fs' : FS} {src : Bytes} {code : GeneratedCode} {o : Outcome}

/-- `main`, when no call fails, is `generate_data`. -/
theorem main_smooth (h : EndsSmoothly fs (main ord fuel c) fs' o) : EndsSmoothly fs (generateData ord fuel c) fs' o := by
  unfold main at h
  obtain ⟨f1, r1, s1, h⟩ := h.try_inv (fun _ h => by cases h)
  cases s1
  obtain ⟨f2, r2, s2, h⟩ := h.call_inv (fun _ h => by cases h)
  cases s2
  obtain ⟨f3, r3, s3, h⟩ := h.try_inv (fun _ h => by cases h)
  cases s3
  exact h

/-- A successful run has generated code. -/
theorem success_code (hs : fs.file c.source = some src) (h : EndsSmoothly fs (generateData ord fuel c) fs' .success) :
    ∃ code, generateParser ord fuel src = .ok (.code code) := by
  unfold generateData at h
  obtain ⟨f1, r1, s1, h⟩ := h.try_inv (fun _ h => by cases h)
  cases s1 with
  | @readString _ d hd =>
    rw [hs] at hd
    injection hd with hd
    subst hd
    simp only at h
    cases hg : generateParser ord fuel src with
    | ok r =>
      cases r with
      | code c => exact ⟨c, rfl⟩
      | syntaxError l => rw [hg] at h; cases h
    | panic e => rw [hg] at h; cases h
    | oof => rw [hg] at h; cases h

/-- What a run leaves of directories. -/
theorem run_dirs (hs : fs.file c.source = some src) (hg : generateParser ord fuel src = .ok (.code code))
    (hap : c.Apart) (hcore : fs.dir c.coreSrc = true) (h : EndsSmoothly fs (generateData ord fuel c) fs' o) :
    (∀ q, ¬ c.crate <+: q → fs'.dir q = fs.dir q) ∧ (c.cargo = false → ∀ q, q ≠ c.crate → fs'.dir q = fs.dir q) := by
  obtain ⟨f1, h, _, _, e0, e1⟩ := emitCrate_smooth (generateData_smooth hs hg h)
  have hne : c.src ≠ c.coreSrc := by
    intro e
    have : c.crate <+: c.src := List.prefix_append _ _
    rw [e] at this
    exact hap.away ["src"] this
  obtain ⟨f2, h, d2, -⟩ := copyDir_smooth hne (by rw [(e1 c.coreSrc (.inl (hap.away ["src"]))).2]; exact hcore) h
  obtain ⟨_, d3, -⟩ := writeFiles_smooth h
  exact ⟨fun q hq => by rw [d3, d2, (e1 q (.inl hq)).2], fun hc q hq => by rw [d3, d2, e0 q hq hc]⟩

/-- The crate's directory, if it is there, stays. -/
theorem run_keeps_crate (hs : fs.file c.source = some src) (hg : generateParser ord fuel src = .ok (.code code))
    (hap : c.Apart) (hcore : fs.dir c.coreSrc = true) (hca : c.cargo = false) (hd : fs.dir c.crate = true)
    (h : EndsSmoothly fs (generateData ord fuel c) fs' o) : fs'.dir c.crate = true := by
  have hne : c.src ≠ c.coreSrc := by
    intro e
    have : c.crate <+: c.src := List.prefix_append _ _
    rw [e] at this
    exact hap.away ["src"] this
  have h := generateData_smooth hs hg h
  unfold emitCrate at h
  obtain ⟨f1, r1, s1, h⟩ := h.try_inv (fun _ h => by cases h)
  cases s1
  cases h with
  | call s2 h =>
    cases s2 with
    | createDir ht => simp [FS.there, hd] at ht
  | already _ h =>
    simp only at h
    rw [if_neg (by decide)] at h
    simp only [cargoCommands, hca, runCargo, Bool.false_eq_true, if_false] at h
    obtain ⟨f2, h, d2, -⟩ := copyDir_smooth hne hcore h
    obtain ⟨_, d3, -⟩ := writeFiles_smooth h
    rw [d3, d2, hd]

theorem holds_there {dir : Path} {names : List String} {contents : List Bytes} (h : fs.Holds dir names contents) {n : String} (hn : n ∈ names) :
    ∃ d, fs.file (dir ++ [n]) = some d := by
  have : fs.file (dir ++ [n]) ∈ contents.map some := h ▸ List.mem_map_of_mem (f := fun n => fs.file (dir ++ [n])) hn
  obtain ⟨d, -, e⟩ := List.mem_map.mp this
  exact ⟨d, e.symm⟩

theorem Holds.append {dir : Path} {a b : List String} {x y : List Bytes} (h : fs.Holds dir a x) (h' : fs.Holds dir b y) : fs.Holds dir (a ++ b) (x ++ y) := by
  unfold FS.Holds at *
  rw [List.map_append, List.map_append, h, h']

theorem Holds.same {fs₁ fs₂ : FS} {dir dir' : Path} {names : List String} {contents : List Bytes} (h : fs₁.Holds dir names contents)
    (he : ∀ n ∈ names, fs₂.file (dir' ++ [n]) = fs₁.file (dir ++ [n])) : fs₂.Holds dir' names contents := by
  unfold FS.Holds at *
  rw [← h]
  exact List.map_congr_left he

theorem core_plain : ∀ n ∈ coreNames, n ∉ ["rules.rs", "parser.rs", "main.rs", "sample_main.txt"] ∧ handWritten n = false := by decide
theorem user_written : ∀ n ∈ userNames, n ∉ ["rules.rs", "parser.rs", "main.rs", "sample_main.txt"] ∧ handWritten n = true := by decide

/-- The crate a run leaves. -/
theorem run_holds {user : List Bytes} (hs : fs.file c.source = some src) (hg : generateParser ord fuel src = .ok (.code code))
    (hap : c.Apart) (hcore : fs.dir c.coreSrc = true) (hc : fs.Holds c.coreSrc coreNames Mini.coreFilesOfParser)
    (hu : fs.UserFiles c user) (h : EndsSmoothly fs (generateData ord fuel c) fs' o) :
    o = .success ∧ fs'.Holds c.src crateNames (Mini.coreFilesOfParser ++ user ++ [rulesFile code, parserFile code]) ∧
      (∀ q, ¬ c.crate <+: q → fs'.file q = fs.file q) := by
  obtain ⟨h1, h2, h3, -, -, h6, h7⟩ := C55_result_of_a_run hs hg hap hcore h
  refine ⟨h1, Holds.append (Holds.append ?_ ?_) ?_, h7⟩
  · refine Holds.same hc fun n hn => ?_
    obtain ⟨d, hd⟩ := holds_there hc hn
    obtain ⟨k1, k2⟩ := core_plain n hn
    rw [h6 n k1 (by simp [FS.there, hd]), if_neg (by simp [k2])]
  · unfold FS.Holds
    rw [← hu]
    refine List.map_congr_left fun n hn => ?_
    obtain ⟨hn4, hw⟩ := user_written n hn
    have hsome : ∃ d, (if fs.there (c.src ++ [n]) = true then fs.file (c.src ++ [n]) else fs.file (c.coreSrc ++ [n])) = some d := by
      have := List.mem_map_of_mem (f := fun n => if fs.there (c.src ++ [n]) = true then fs.file (c.src ++ [n]) else fs.file (c.coreSrc ++ [n])) hn
      rw [hu] at this
      obtain ⟨d, -, e⟩ := List.mem_map.mp this
      exact ⟨d, e.symm⟩
    by_cases ht : fs.there (c.coreSrc ++ [n]) = true
    · rw [h6 n hn4 ht]
      simp only [hw, true_and]
    · -- the core has no such file: that of the crate stays
      obtain ⟨f1, g, _, _, e0, e1⟩ := emitCrate_smooth (generateData_smooth hs hg h)
      have hne : c.src ≠ c.coreSrc := by
        intro e
        have : c.crate <+: c.src := List.prefix_append _ _
        rw [e] at this
        exact hap.away ["src"] this
      have ec := e1 (c.coreSrc ++ [n]) (.inl (by rw [Config.coreSrc, List.append_assoc]; exact hap.away _))
      obtain ⟨f2, g, d2, -, e3, -⟩ := copyDir_smooth hne (by rw [(e1 c.coreSrc (.inl (hap.away ["src"]))).2]; exact hcore) g
      obtain ⟨-, -, -, -, -, -, k7⟩ := writeFiles_smooth g
      have ht' : fs.there (c.coreSrc ++ [n]) = false := by simpa using ht
      rw [k7 _ fun m hm e => hn4 (by have : n = m := by simpa using e
                                     exact this ▸ hm),
        e3 n (by simp only [FS.there, ec.1, ec.2] at ht' ⊢; exact ht'), (e1 _ (.inr ⟨n, hw, rfl⟩)).1]
      have hnone : fs.file (c.coreSrc ++ [n]) = none := by
        simp only [FS.there, Bool.or_eq_false_iff] at ht'
        simpa using ht'.1
      rw [hnone] at hsome ⊢
      split at hsome
      · rename_i hx; rw [if_pos hx]
      · obtain ⟨d, hd⟩ := hsome; cases hd
  · simp [FS.Holds, h2, h3]

/-! ## Runs that nothing stands in the way of -/

theorem copyLoop_exists {target source : Path} {k : Prog} (hne : target ≠ source) : ∀ (es : List (Option String)) (fs : FS), none ∉ es →
    fs.dir target = true → (∀ n, some n ∈ es → fs.dir (target ++ [n]) = false ∧ (fs.file (source ++ [n])).isSome) →
    (∀ fs₁ : FS, fs₁.dir = fs.dir → (∀ q, (∀ n, q ≠ target ++ [n]) → fs₁.file q = fs.file q) → (∀ q, (fs.file q).isSome → (fs₁.file q).isSome) →
      (∀ n, some n ∈ es → (fs₁.file (target ++ [n])).isSome) → ∃ fs', EndsSmoothly fs₁ k fs' o) →
    ∃ fs', EndsSmoothly fs (copyLoop target source k es) fs' o
  | [], fs, _, _, _, hk => hk fs rfl (fun _ _ => rfl) (fun _ h => h) (fun _ h => by simp at h)
  | none :: _, _, hn, _, _, _ => absurd (List.mem_cons_self ..) hn
  | some n :: es, fs, hn, hd, hf, hk => by
    have hn' : none ∉ es := fun h => hn (List.mem_cons_of_mem _ h)
    obtain ⟨h1, h2⟩ := hf n (List.mem_cons_self ..)
    have cross : ∀ m, source ++ [m] ≠ target ++ [n] := fun m h => hne (by simpa using (List.append_inj' h rfl).1.symm)
    have stay : (fs.file (target ++ [n])).isSome → ∃ fs', EndsSmoothly fs (copyLoop target source k es) fs' o := fun ht =>
      copyLoop_exists hne es fs hn' hd (fun m hm => hf m (List.mem_cons_of_mem _ hm)) fun fs₁ e1 e2 e3 e4 => hk fs₁ e1 e2 e3 fun m hm => by
        rcases List.mem_cons.mp hm with hm | hm
        · obtain rfl : m = n := by simpa using hm
          exact e3 _ ht
        · exact e4 m hm
    have go : ∃ fs', EndsSmoothly fs (.call (.create (target ++ [n])) fun _ =>
        .try (.copy (source ++ [n]) (target ++ [n])) k fun _ => copyLoop target source k es) fs' o := by
      obtain ⟨d, hd'⟩ := Option.isSome_iff_exists.mp h2
      refine smooth_call (.create (by simpa using hd) h1) (smooth_call (.copy (d := d) (by simpa [FS.put] using hd) (by simpa [FS.put] using h1) ?_ ?_) ?_)
      · simp only [FS.put, if_neg (cross n)]; exact h2
      · simp only [FS.put, if_neg (cross n)]; exact hd'
      · refine copyLoop_exists hne es _ hn' (by simpa [FS.put] using hd) (fun m hm => ?_) fun fs₁ e1 e2 e3 e4 => hk fs₁ e1 (fun q hq => ?_) (fun q hq => ?_) fun m hm => ?_
        · obtain ⟨k1, k2⟩ := hf m (List.mem_cons_of_mem _ hm)
          exact ⟨k1, by simp only [FS.put, if_neg (cross m)]; exact k2⟩
        · rw [e2 q hq]; simp only [FS.put, if_neg (hq n)]
        · exact e3 q (by simp only [FS.put]; split <;> simp [hq])
        · rcases List.mem_cons.mp hm with hm | hm
          · obtain rfl : m = n := by simpa using hm
            exact e3 _ (by simp [FS.put])
          · exact e4 m hm
    unfold copyLoop
    simp only
    split
    · refine smooth_call .exists ?_
      simp only [Reply.bool.injEq]
      split
      · rename_i ht
        simp only [FS.there, h1, Bool.or_false] at ht
        exact stay ht
      · exact go
    · exact go

/-- Nothing stands in the way of a run. -/
theorem run_exists (hs : fs.file c.source = some src) (hg : generateParser ord fuel src = .ok (.code code)) (hap : c.Apart) (hca : c.cargo = false)
    (ht : fs.dir c.target = true) (hc : fs.dir c.core = true) (hcr : fs.dir c.crate = true) (hsrc : fs.dir c.src = true) (hcs : fs.dir c.coreSrc = true)
    (hfree : ∀ n, fs.dir (c.src ++ [n]) = false) {names : List String} (hnd : names.Nodup) (hsm : "sample_main.txt" ∈ names)
    (hl : ∀ n, n ∈ names ↔ fs.there (c.coreSrc ++ [n]) = true) (hreg : ∀ n, fs.dir (c.coreSrc ++ [n]) = false) :
    ∃ fs', EndsSmoothly fs (main ord fuel c) fs' .success := by
  have hne : c.src ≠ c.coreSrc := by
    intro e
    have : c.crate <+: c.src := List.prefix_append _ _
    rw [e] at this
    exact hap.away ["src"] this
  have cross : ∀ m n, c.coreSrc ++ [m] ≠ c.src ++ [n] := fun m n e => hne ((List.append_inj' e rfl).1.symm)
  have hfile : ∀ n, n ∈ names → (fs.file (c.coreSrc ++ [n])).isSome := fun n hn => by
    have := (hl n).mp hn
    simpa [FS.there, hreg n] using this
  have hT : ∀ {p}, fs.dir p = true → fs.there p = true := fun h => by simp [FS.there, h]
  have hS : fs.there c.source = true := by simp [FS.there, hs]
  unfold main Prog.try
  refine smooth_call (.canonicalize hS) (smooth_call (.canonicalize (hT ht)) (smooth_call (.canonicalize (hT hc)) ?_))
  unfold generateData Prog.try
  refine smooth_call (.readString hs) ?_
  simp only [hg]
  unfold emitCrate Prog.try
  refine smooth_call (.canonicalize (hT ht)) (smooth_already (hT hcr) ?_)
  rw [if_neg (by decide)]
  simp only [cargoCommands, hca, runCargo, Bool.false_eq_true, if_false]
  unfold copyDir Prog.try
  refine smooth_call .isDir ?_
  rw [hcs, if_pos rfl]
  refine smooth_call (.readDir (l := names.map some) hcs ⟨?_, by simp, fun n => ?_⟩) ?_
  · exact List.Pairwise.map _ (fun a b h e => h (by simpa using e)) hnd
  · rw [← hl n]; simp
  · refine copyLoop_exists hne _ _ (by simp) hsrc (fun n hn => ⟨hfree n, hfile n (by simpa using hn)⟩) fun fs₁ e1 e2 _ e4 => ?_
    obtain ⟨d, hd⟩ := Option.isSome_iff_exists.mp (hfile _ hsm)
    have e5 := e4 "sample_main.txt" (by simpa using hsm)
    unfold writeFiles Prog.try
    have hdl : ∀ n, (c.src ++ [n]).dropLast = c.src := fun n => by simp
    refine smooth_call (.write (by rw [hdl, e1]; exact hsrc) (by rw [e1]; exact hfree _))
      (smooth_call (.write (by rw [hdl]; show fs₁.dir _ = _; rw [e1]; exact hsrc) (by show fs₁.dir _ = _; rw [e1]; exact hfree _))
      (smooth_call (.readString (d := d) ?_)
      (smooth_call (.write (by rw [hdl]; show fs₁.dir _ = _; rw [e1]; exact hsrc) (by show fs₁.dir _ = _; rw [e1]; exact hfree _))
      (smooth_call (.remove ?_) ⟨_, .ret⟩))))
    · simp only [FS.put, if_neg (cross _ _)]
      rw [e2 _ fun n => cross _ n]; exact hd
    · simp only [FS.put]
      rw [if_neg (by simp), if_neg (by simp), if_neg (by simp)]; exact e5

end PP.Run
