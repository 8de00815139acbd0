import Verif.Lemmas.Disk

/-! # Runs in which no call fails -/
namespace PP.Run
open PP.Gen

theorem Succeeds.notErr {fs c fs' r} (h : Succeeds fs c fs' r) (b : Bool) : r ≠ .err b := by
  cases h <;> exact fun h => by cases h

theorem EndsSmoothly.call_inv {fs c k fs' o} (h : EndsSmoothly fs (.call c k) fs' o) (hc : ∀ p, c ≠ .createDir p) :
    ∃ fs₁ r, Succeeds fs c fs₁ r ∧ EndsSmoothly fs₁ (k r) fs' o := by
  cases h with
  | call h1 h2 => exact ⟨_, _, h1, h2⟩
  | already => exact absurd rfl (hc _)

theorem EndsSmoothly.try_inv {fs c e k fs' o} (h : EndsSmoothly fs (.try c e k) fs' o) (hc : ∀ p, c ≠ .createDir p) :
    ∃ fs₁ r, Succeeds fs c fs₁ r ∧ EndsSmoothly fs₁ (k r) fs' o := by
  obtain ⟨fs₁, r, h1, h2⟩ := h.call_inv hc
  refine ⟨fs₁, r, h1, ?_⟩
  cases r with
  | err b => exact absurd rfl (h1.notErr b)
  | _ => exact h2

/-- Where the loop has been, in a run without failures. -/
theorem copyLoop_smooth {target source : Path} {k : Prog} {fs' : FS} {o} (hne : target ≠ source) :
    ∀ {es : List (Option String)} {fs : FS}, es.Nodup → none ∉ es → EndsSmoothly fs (copyLoop target source k es) fs' o →
      ∃ fs₁, EndsSmoothly fs₁ k fs' o ∧ fs₁.dir = fs.dir ∧ (∀ q, (∀ n, some n ∈ es → q ≠ target ++ [n]) → fs₁.file q = fs.file q) ∧
        ∀ n, some n ∈ es → fs₁.file (target ++ [n]) =
          if handWritten n = true ∧ fs.there (target ++ [n]) = true then fs.file (target ++ [n]) else fs.file (source ++ [n])
  | [], fs, _, _, h => ⟨fs, h, rfl, fun _ _ => rfl, fun _ h => by simp at h⟩
  | none :: _, _, _, hn, _ => absurd (List.mem_cons_self ..) hn
  | some n :: es, fs, hd, hn, h => by
    have hd' := (List.nodup_cons.mp hd).2
    have hmem := (List.nodup_cons.mp hd).1
    have hn' : none ∉ es := fun h => hn (List.mem_cons_of_mem _ h)
    have inj : ∀ m, target ++ [m] = target ++ [n] → m = n := fun m h => by simpa using h
    have cross : ∀ m, source ++ [m] ≠ target ++ [n] := fun m h => hne (by simpa using (List.append_inj' h rfl).1.symm)
    -- the file is left as it is
    have stay : EndsSmoothly fs (copyLoop target source k es) fs' o → handWritten n = true ∧ fs.there (target ++ [n]) = true →
        ∃ fs₁, EndsSmoothly fs₁ k fs' o ∧ fs₁.dir = fs.dir ∧
          (∀ q, (∀ m, some m ∈ some n :: es → q ≠ target ++ [m]) → fs₁.file q = fs.file q) ∧
          ∀ m, some m ∈ some n :: es → fs₁.file (target ++ [m]) =
            if handWritten m = true ∧ fs.there (target ++ [m]) = true then fs.file (target ++ [m]) else fs.file (source ++ [m]) := by
      intro h hw
      obtain ⟨fs₁, h1, h2, h3, h4⟩ := copyLoop_smooth hne hd' hn' h
      refine ⟨fs₁, h1, h2, fun q hq => h3 q fun m hm => hq m (List.mem_cons_of_mem _ hm), fun m hm => ?_⟩
      by_cases hmn : m = n
      · subst hmn
        rw [if_pos hw]
        exact h3 _ fun j hj e => hmem (by have : m = j := by simpa using e
                                          exact this ▸ hj)
      · exact h4 m ((List.mem_cons.mp hm).resolve_left fun e => hmn (by simpa using e))
    -- the file is copied
    have go : EndsSmoothly fs (.call (.create (target ++ [n])) fun _ =>
          .try (.copy (source ++ [n]) (target ++ [n])) k fun _ => copyLoop target source k es) fs' o →
        ¬ (handWritten n = true ∧ fs.there (target ++ [n]) = true) →
        ∃ fs₁, EndsSmoothly fs₁ k fs' o ∧ fs₁.dir = fs.dir ∧
          (∀ q, (∀ m, some m ∈ some n :: es → q ≠ target ++ [m]) → fs₁.file q = fs.file q) ∧
          ∀ m, some m ∈ some n :: es → fs₁.file (target ++ [m]) =
            if handWritten m = true ∧ fs.there (target ++ [m]) = true then fs.file (target ++ [m]) else fs.file (source ++ [m]) := by
      intro h hw
      obtain ⟨f1, r1, s1, h⟩ := h.call_inv (fun _ h => by cases h)
      obtain ⟨f2, r2, s2, h⟩ := h.try_inv (fun _ h => by cases h)
      cases s1
      cases s2 with
      | @copy _ _ d c1 c2 c3 c4 =>
        obtain ⟨fs₁, h1, h2, h3, h4⟩ := copyLoop_smooth hne hd' hn' h
        have hd0 : fs.file (source ++ [n]) = some d := by
          have := c4
          simp only [FS.put, if_neg (cross n)] at this
          exact this
        refine ⟨fs₁, h1, by rw [h2]; rfl, fun q hq => ?_, fun m hm => ?_⟩
        · rw [h3 q fun m hm => hq m (List.mem_cons_of_mem _ hm)]
          simp only [FS.put, if_neg (hq n (List.mem_cons_self ..))]
        · by_cases hmn : m = n
          · subst hmn
            rw [if_neg hw, h3 _ fun j hj e => hmem (by have : m = j := by simpa using e
                                                       exact this ▸ hj), hd0]
            simp [FS.put]
          · rw [h4 m ((List.mem_cons.mp hm).resolve_left fun e => hmn (by simpa using e))]
            have e1 : target ++ [m] ≠ target ++ [n] := fun h => hmn (inj m h)
            simp only [FS.there, FS.put, if_neg e1, if_neg (cross m)]
            congr
    unfold copyLoop at h
    simp only at h
    by_cases hh : handWritten n = true
    · rw [if_pos hh] at h
      obtain ⟨f1, r1, s1, h⟩ := h.try_inv (fun _ h => by cases h)
      cases s1
      by_cases ht : fs.there (target ++ [n]) = true
      · rw [ht, if_pos rfl] at h
        exact stay h ⟨hh, ht⟩
      · have ht' : fs.there (target ++ [n]) = false := by simpa using ht
        rw [ht', if_neg (by decide)] at h
        exact go h fun h => ht h.2
    · rw [if_neg hh] at h
      exact go h fun h => hh h.1

/-- The loop, when a directory is copied onto itself. -/
theorem copyLoop_self {dir : Path} {k : Prog} {fs' : FS} {o} :
    ∀ {es : List (Option String)} {fs : FS}, es.Nodup → none ∉ es → (∀ n, some n ∈ es → fs.there (dir ++ [n]) = true) →
      EndsSmoothly fs (copyLoop dir dir k es) fs' o →
      ∃ fs₁, EndsSmoothly fs₁ k fs' o ∧ fs₁.dir = fs.dir ∧ (∀ q, (∀ n, some n ∈ es → q ≠ dir ++ [n]) → fs₁.file q = fs.file q) ∧
        ∀ n, some n ∈ es → fs₁.file (dir ++ [n]) = if handWritten n = true then fs.file (dir ++ [n]) else some []
  | [], fs, _, _, _, h => ⟨fs, h, rfl, fun _ _ => rfl, fun _ h => by simp at h⟩
  | none :: _, _, _, hn, _, _ => absurd (List.mem_cons_self ..) hn
  | some n :: es, fs, hd, hn, ht, h => by
    have hd' := (List.nodup_cons.mp hd).2
    have hmem := (List.nodup_cons.mp hd).1
    have hn' : none ∉ es := fun h => hn (List.mem_cons_of_mem _ h)
    have inj : ∀ m, dir ++ [m] = dir ++ [n] → m = n := fun m h => by simpa using h
    have away : ∀ j, some j ∈ es → dir ++ [n] ≠ dir ++ [j] := fun j hj e => hmem (by
      have : n = j := by simpa using e
      exact this ▸ hj)
    unfold copyLoop at h
    simp only at h
    by_cases hh : handWritten n = true
    · rw [if_pos hh] at h
      obtain ⟨f1, r1, s1, h⟩ := h.try_inv (fun _ h => by cases h)
      cases s1
      rw [ht n (List.mem_cons_self ..), if_pos rfl] at h
      obtain ⟨fs₁, h1, h2, h3, h4⟩ := copyLoop_self hd' hn' (fun m hm => ht m (List.mem_cons_of_mem _ hm)) h
      refine ⟨fs₁, h1, h2, fun q hq => h3 q fun m hm => hq m (List.mem_cons_of_mem _ hm), fun m hm => ?_⟩
      by_cases hmn : m = n
      · subst hmn
        rw [if_pos hh]
        exact h3 _ away
      · exact h4 m ((List.mem_cons.mp hm).resolve_left fun e => hmn (by simpa using e))
    · rw [if_neg hh] at h
      obtain ⟨f1, r1, s1, h⟩ := h.call_inv (fun _ h => by cases h)
      obtain ⟨f2, r2, s2, h⟩ := h.try_inv (fun _ h => by cases h)
      cases s1
      cases s2 with
      | @copy _ _ d c1 c2 c3 c4 =>
        have hd0 : d = [] := by simpa [FS.put] using c4.symm
        have e1 : ∀ m, m ≠ n → dir ++ [m] ≠ dir ++ [n] := fun m hm h => hm (inj m h)
        obtain ⟨fs₁, h1, h2, h3, h4⟩ := copyLoop_self hd' hn' (fun m hm => by
          have : m ≠ n := fun e => hmem (e ▸ hm)
          have := ht m (List.mem_cons_of_mem _ hm)
          simpa only [FS.there, FS.put, if_neg (e1 m ‹_›)] using this) h
        refine ⟨fs₁, h1, by rw [h2]; rfl, fun q hq => ?_, fun m hm => ?_⟩
        · rw [h3 q fun m hm => hq m (List.mem_cons_of_mem _ hm)]
          simp only [FS.put, if_neg (hq n (List.mem_cons_self ..))]
        · by_cases hmn : m = n
          · subst hmn
            rw [if_neg hh, h3 _ away]
            simp [FS.put, hd0]
          · rw [h4 m ((List.mem_cons.mp hm).resolve_left fun e => hmn (by simpa using e))]
            simp only [FS.put, if_neg (e1 m hmn)]

/-- The last steps of a run without failures. -/
theorem writeFiles_smooth {c : Config} {code : GeneratedCode} {fs fs' : FS} {o} (h : EndsSmoothly fs (writeFiles c code) fs' o) :
    o = .success ∧ fs'.dir = fs.dir ∧ fs'.file (c.src ++ ["rules.rs"]) = some (rulesFile code) ∧
      fs'.file (c.src ++ ["parser.rs"]) = some (parserFile code) ∧ fs'.file (c.src ++ ["sample_main.txt"]) = none ∧
      (∃ d, fs.file (c.coreSrc ++ ["sample_main.txt"]) = some d ∧ fs'.file (c.src ++ ["main.rs"]) = some (mainHeader c.name ++ d)) ∧
      ∀ q, (∀ n ∈ ["rules.rs", "parser.rs", "main.rs", "sample_main.txt"], q ≠ c.src ++ [n]) → fs'.file q = fs.file q := by
  unfold writeFiles at h
  obtain ⟨f1, r1, s1, h⟩ := h.call_inv (fun _ h => by cases h)
  obtain ⟨f2, r2, s2, h⟩ := h.call_inv (fun _ h => by cases h)
  obtain ⟨f3, r3, s3, h⟩ := h.try_inv (fun _ h => by cases h)
  cases s1; cases s2
  cases s3 with
  | @readString _ d hd =>
  simp only at h
  obtain ⟨f4, r4, s4, h⟩ := h.call_inv (fun _ h => by cases h)
  obtain ⟨f5, r5, s5, h⟩ := h.try_inv (fun _ h => by cases h)
  cases s4; cases s5
  cases h
  have ne : ∀ a b : String, a ≠ b → c.src ++ [a] ≠ c.src ++ [b] := fun a b h e => h (by simpa using e)
  have hd' : fs.file (c.coreSrc ++ ["sample_main.txt"]) = some d := by
    have e1 : ∀ b : String, b ≠ "sample_main.txt" → c.coreSrc ++ ["sample_main.txt"] ≠ c.src ++ [b] := fun b hb e =>
      hb (by simpa using (List.append_inj' e rfl).2.symm)
    simpa only [FS.put, if_neg (e1 "rules.rs" (by decide)), if_neg (e1 "parser.rs" (by decide))] using hd
  refine ⟨rfl, rfl, ?_, ?_, ?_, ⟨d, hd', ?_⟩, fun q hq => ?_⟩
  · simp [FS.put]
  · simp [FS.put]
  · simp [FS.put]
  · simp [FS.put]
  · simp only [List.mem_cons, List.not_mem_nil, or_false, forall_eq_or_imp, forall_eq] at hq
    obtain ⟨q1, q2, q3, q4⟩ := hq
    simp only [FS.put, if_neg q1, if_neg q2, if_neg q3, if_neg q4]

/-- The copying, in a run without failures. -/
theorem copyDir_smooth {target source : Path} {k : Prog} {fs fs' : FS} {o} (hne : target ≠ source) (hs : fs.dir source = true)
    (h : EndsSmoothly fs (copyDir target source k) fs' o) :
    ∃ fs₁, EndsSmoothly fs₁ k fs' o ∧ fs₁.dir = fs.dir ∧ (∀ q, (∀ n, q ≠ target ++ [n]) → fs₁.file q = fs.file q) ∧
      (∀ n, fs.there (source ++ [n]) = false → fs₁.file (target ++ [n]) = fs.file (target ++ [n])) ∧
      ∀ n, fs.there (source ++ [n]) = true → fs₁.file (target ++ [n]) =
        if handWritten n = true ∧ fs.there (target ++ [n]) = true then fs.file (target ++ [n]) else fs.file (source ++ [n]) := by
  unfold copyDir at h
  obtain ⟨f1, r1, s1, h⟩ := h.call_inv (fun _ h => by cases h)
  cases s1
  rw [hs, if_pos rfl] at h
  obtain ⟨f2, r2, s2, h⟩ := h.try_inv (fun _ h => by cases h)
  cases s2 with
  | @readDir _ l _ hl =>
    obtain ⟨hd, hn, hm⟩ := hl
    obtain ⟨fs₁, h1, h2, h3, h4⟩ := copyLoop_smooth hne hd hn h
    refine ⟨fs₁, h1, h2, fun q hq => h3 q fun n _ => hq n, fun n hn => h3 _ fun m hm' e => ?_, fun n hn => h4 n ((hm n).mpr hn)⟩
    have e : n = m := by simpa using e
    subst e
    rw [(hm n).mp hm'] at hn
    cases hn

theorem copyDir_self {dir : Path} {k : Prog} {fs fs' : FS} {o} (hs : fs.dir dir = true)
    (h : EndsSmoothly fs (copyDir dir dir k) fs' o) :
    ∃ fs₁, EndsSmoothly fs₁ k fs' o ∧ fs₁.dir = fs.dir ∧ (∀ q, (∀ n, q ≠ dir ++ [n]) → fs₁.file q = fs.file q) ∧
      (∀ n, fs.there (dir ++ [n]) = false → fs₁.file (dir ++ [n]) = fs.file (dir ++ [n])) ∧
      ∀ n, fs.there (dir ++ [n]) = true → fs₁.file (dir ++ [n]) = if handWritten n = true then fs.file (dir ++ [n]) else some [] := by
  unfold copyDir at h
  obtain ⟨f1, r1, s1, h⟩ := h.call_inv (fun _ h => by cases h)
  cases s1
  rw [hs, if_pos rfl] at h
  obtain ⟨f2, r2, s2, h⟩ := h.try_inv (fun _ h => by cases h)
  cases s2 with
  | @readDir _ l _ hl =>
    obtain ⟨hd, hn, hm⟩ := hl
    obtain ⟨fs₁, h1, h2, h3, h4⟩ := copyLoop_self hd hn (fun n => (hm n).mp) h
    refine ⟨fs₁, h1, h2, fun q hq => h3 q fun n _ => hq n, fun n hn => h3 _ fun m hm' e => ?_, fun n hn => h4 n ((hm n).mpr hn)⟩
    have e : n = m := by simpa using e
    subst e
    rw [(hm n).mp hm'] at hn
    cases hn

theorem runCargo_smooth {dir : Path} {k : Prog} {fs' : FS} {o} : ∀ {l : List (List String)} {fs : FS},
    EndsSmoothly fs (runCargo dir k l) fs' o → ∃ fs₁, EndsSmoothly fs₁ k fs' o ∧ (l = [] → fs₁ = fs) ∧
      (∀ q, (¬ dir <+: q ∨ ∃ n, handWritten n = true ∧ q = dir ++ ["src"] ++ [n]) → fs₁.file q = fs.file q ∧ fs₁.dir q = fs.dir q)
  | [], fs, h => ⟨fs, h, fun _ => rfl, fun _ _ => ⟨rfl, rfl⟩⟩
  | a :: l, fs, h => by
    obtain ⟨f1, r1, s1, h⟩ := EndsSmoothly.try_inv h (fun _ h => by cases h)
    obtain ⟨fs₁, h1, _, h2⟩ := runCargo_smooth h
    refine ⟨fs₁, h1, fun h => (by cases h), fun q hq => ?_⟩
    obtain ⟨c1, c2⟩ := s1.changes
    have hno : ¬ (dir <+: q ∧ q ≠ dir ++ ["src", "hooked_calls.rs"] ∧ q ≠ dir ++ ["src", "user_state.rs"]) := by
      rintro ⟨h1, h2, h3⟩
      rcases hq with hq | ⟨n, hn, rfl⟩
      · exact hq h1
      · rw [List.append_assoc] at h2 h3
        rcases handWritten_iff.mp hn with rfl | rfl
        · exact h2 rfl
        · exact h3 rfl
    exact ⟨(h2 q hq).1.trans ((c1 q).resolve_right hno), (h2 q hq).2.trans ((c2 q).resolve_right hno)⟩

/-- Up to the copying. -/
theorem emitCrate_smooth {c : Config} {code : GeneratedCode} {fs fs' : FS} {o} (h : EndsSmoothly fs (emitCrate c code) fs' o) :
    ∃ fs₁, EndsSmoothly fs₁ (copyDir c.src c.coreSrc (writeFiles c code)) fs' o ∧ (c.cargo = false → fs₁.file = fs.file) ∧
      (∀ q, q ≠ c.crate → fs.dir q = true → c.cargo = false → fs₁.dir q = true) ∧
      (∀ q, q ≠ c.crate → c.cargo = false → fs₁.dir q = fs.dir q) ∧
      (∀ q, (¬ c.crate <+: q ∨ ∃ n, handWritten n = true ∧ q = c.src ++ [n]) → fs₁.file q = fs.file q ∧ fs₁.dir q = fs.dir q) := by
  unfold emitCrate at h
  obtain ⟨f1, r1, s1, h⟩ := h.try_inv (fun _ h => by cases h)
  cases s1
  have fin : ∀ {f2 : FS}, f2.file = fs.file → (∀ q, q ≠ c.crate → f2.dir q = fs.dir q) →
      EndsSmoothly f2 (runCargo c.crate (copyDir c.src c.coreSrc (writeFiles c code)) (cargoCommands c)) fs' o →
      ∃ fs₁, EndsSmoothly fs₁ (copyDir c.src c.coreSrc (writeFiles c code)) fs' o ∧ (c.cargo = false → fs₁.file = fs.file) ∧
      (∀ q, q ≠ c.crate → fs.dir q = true → c.cargo = false → fs₁.dir q = true) ∧
      (∀ q, q ≠ c.crate → c.cargo = false → fs₁.dir q = fs.dir q) ∧
      (∀ q, (¬ c.crate <+: q ∨ ∃ n, handWritten n = true ∧ q = c.src ++ [n]) → fs₁.file q = fs.file q ∧ fs₁.dir q = fs.dir q) := by
    intro f2 hf hd h
    obtain ⟨fs₁, h1, h2, h3⟩ := runCargo_smooth h
    have hc : c.cargo = false → cargoCommands c = [] := fun h => by simp [cargoCommands, h]
    refine ⟨fs₁, h1, fun h => by rw [h2 (hc h), hf], fun q hq hdq h => by rw [h2 (hc h), hd q hq, hdq],
      fun q hq h => by rw [h2 (hc h), hd q hq], fun q hq => ?_⟩
    have hqc : q ≠ c.crate := by
      rintro rfl
      rcases hq with hq | ⟨n, _, hq⟩
      · exact hq (List.prefix_rfl)
      · have := congrArg List.length hq
        simp [Config.src] at this
    exact ⟨(h3 q hq).1.trans (congrFun hf q), (h3 q hq).2.trans (hd q hqc)⟩
  cases h with
  | call s2 h =>
    cases s2
    simp only [reduceCtorEq, if_false] at h
    exact fin (f2 := { fs with dir := fun q => if q = c.crate then true else fs.dir q }) rfl (fun q hq => by simp [hq]) h
  | already _ h =>
    simp only at h
    rw [if_neg (by decide)] at h
    exact fin rfl (fun _ _ => rfl) h

theorem generateData_smooth {ord : HashOrd} {fuel : Nat} {c : Config} {src : Bytes} {code : GeneratedCode} {fs fs' : FS} {o}
    (hs : fs.file c.source = some src) (hg : generateParser ord fuel src = .ok (.code code))
    (h : EndsSmoothly fs (generateData ord fuel c) fs' o) : EndsSmoothly fs (emitCrate c code) fs' o := by
  unfold generateData at h
  obtain ⟨f1, r1, s1, h⟩ := h.try_inv (fun _ h => by cases h)
  cases s1 with
  | @readString _ d hd =>
    rw [hs] at hd
    injection hd with hd
    subst hd
    simp only [hg] at h
    exact h

end PP.Run
