import Verif.Spec.Disk

/-! # Facts about programs running on disks -/
namespace PP.Run
open PP.Gen

theorem Changes.refl {c : Call} {fs : FS} : Changes c fs fs := ⟨fun _ => .inl rfl, fun _ => .inl rfl⟩

theorem Succeeds.changes {fs c fs' r} (h : Succeeds fs c fs' r) : Changes c fs fs' := by
  have put : ∀ {c : Call} {p d}, c.mayChange p → Changes c fs (fs.put p d) := by
    intro c p d hm
    refine ⟨fun q => ?_, fun _ => .inl rfl⟩
    by_cases hq : q = p
    · exact .inr (hq ▸ hm)
    · exact .inl (by simp [FS.put, hq])
  cases h with
  | canonicalize _ => exact .refl
  | createDirAll h _ => exact h
  | @createDir p h =>
    refine ⟨fun _ => .inl rfl, fun q => ?_⟩
    by_cases hq : q = p
    · exact .inr (by simp [Call.mayCreate, hq])
    · exact .inl (by simp [hq])
  | readString _ => exact .refl
  | cargo h => exact h
  | isDir => exact .refl
  | readDir _ _ => exact .refl
  | «exists» => exact .refl
  | create _ _ => exact put rfl
  | copy _ _ _ _ => exact put rfl
  | write _ _ => exact put rfl
  | remove _ => exact put rfl

theorem Does.changes {fs c fs' r} (h : Does fs c fs' r) : Changes c fs fs' := by
  cases h with
  | succeeds h => exact h.changes
  | fails h => exact h
  | already _ => exact .refl
  | notDir => exact .refl
  | unreadable => exact .refl

theorem Ends.onDisk {fs P fs' o} (h : Ends fs P fs' o) : OnDisk fs P fs' := by
  induction h with
  | ret => exact .now
  | call h _ ih => exact .later h ih

theorem EndsSmoothly.ends {fs P fs' o} (h : EndsSmoothly fs P fs' o) : Ends fs P fs' o := by
  induction h with
  | ret => exact .ret
  | call h _ ih => exact .call (.succeeds h) ih
  | already h _ ih => exact .call (.already h) ih

/-- A relation between disks that is reflexive and transitive and contains the effects of all calls a program can make contains
its whole behaviour.  `I` restricts the disks considered. -/
def Within (R : FS → FS → Prop) (P : Prog) : Prop := ∀ fs fs', OnDisk fs P fs' → R fs fs'

theorem Within.ret {R : FS → FS → Prop} (hr : ∀ fs, R fs fs) (o : Outcome) : Within R (.ret o) := by
  intro fs fs' h
  cases h
  exact hr _

theorem Within.call {R : FS → FS → Prop} (hr : ∀ fs, R fs fs) (ht : ∀ a b c, R a b → R b c → R a c) {c : Call} {k : Reply → Prog}
    (hc : ∀ fs fs', Changes c fs fs' → R fs fs') (hk : ∀ r, Within R (k r)) : Within R (.call c k) := by
  intro fs fs' h
  cases h with
  | now => exact hr _
  | within h => exact hc _ _ h
  | later h1 h2 => exact ht _ _ _ (hc _ _ h1.changes) (hk _ _ _ h2)

theorem Within.try {R : FS → FS → Prop} (hr : ∀ fs, R fs fs) (ht : ∀ a b c, R a b → R b c → R a c) {c : Call} {e : Prog}
    {k : Reply → Prog} (hc : ∀ fs fs', Changes c fs fs' → R fs fs') (he : Within R e) (hk : ∀ r, Within R (k r)) :
    Within R (.try c e k) := by
  refine .call hr ht hc fun r => ?_
  cases r with
  | err _ => exact he
  | _ => exact hk _

/-! ## One file is kept -/

/-- If `q` holds `d`, it goes on doing so. -/
def Kept (q : Path) (d : Bytes) (fs fs' : FS) : Prop := fs.file q = some d → fs'.file q = some d

theorem Kept.rfl' {q d} (fs : FS) : Kept q d fs fs := fun h => h
theorem Kept.trans {q d} (a b c : FS) (h1 : Kept q d a b) (h2 : Kept q d b c) : Kept q d a c := fun h => h2 (h1 h)
theorem Kept.of_changes {q d} {c : Call} (hc : ¬ c.mayChange q) {fs fs' : FS} (h : Changes c fs fs') : Kept q d fs fs' :=
  fun hq => ((h.1 q).resolve_right hc).trans hq

theorem Kept.call {q d} {c : Call} {k : Reply → Prog} (hc : ¬ c.mayChange q) (hk : ∀ r, Within (Kept q d) (k r)) :
    Within (Kept q d) (.call c k) := .call Kept.rfl' Kept.trans (fun _ _ => .of_changes hc) hk
theorem Kept.try {q d} {c : Call} {e : Prog} {k : Reply → Prog} (hc : ¬ c.mayChange q) (he : Within (Kept q d) e)
    (hk : ∀ r, Within (Kept q d) (k r)) : Within (Kept q d) (.try c e k) :=
  .try Kept.rfl' Kept.trans (fun _ _ => .of_changes hc) he hk
theorem Kept.ret {q d} (o : Outcome) : Within (Kept q d) (.ret o) := .ret Kept.rfl' o

/-- Asking whether an existing file exists is answered by yes, or fails. -/
theorem Kept.exists {q d} {e : Prog} {k : Reply → Prog} (he : Within (Kept q d) e) (hk : Within (Kept q d) (k (.bool true))) :
    Within (Kept q d) (.try (.exists q) e k) := by
  intro fs fs' h
  have hc : ¬ (Call.exists q).mayChange q := fun h => h
  cases h with
  | now => exact Kept.rfl' _
  | within h => exact .of_changes hc h
  | later h1 h2 =>
    intro hq
    cases h1 with
    | succeeds h1 =>
      cases h1 with
      | «exists» =>
        have ht : fs.there q = true := by simp [FS.there, hq]
        rw [ht] at h2
        exact hk _ _ h2 hq
    | fails h1 => exact he _ _ h2 (Kept.of_changes hc h1 hq)

/-- The loop keeps hand-written files of the target directory. -/
theorem copyLoop_kept {target source : Path} {k : Prog} {x : String} {d} (hx : handWritten x = true)
    (hk : Within (Kept (target ++ [x]) d) k) : ∀ es, Within (Kept (target ++ [x]) d) (copyLoop target source k es)
  | [] => hk
  | none :: _ => hk
  | some n :: es => by
    unfold copyLoop
    have ih := copyLoop_kept (source := source) hx hk es
    by_cases hn : n = x
    · subst hn
      rw [if_pos hx]
      exact Kept.exists hk (by rw [if_pos rfl]; exact ih)
    · have hne : target ++ [x] ≠ target ++ [n] := fun h => hn (by simpa using h.symm)
      have go : Within (Kept (target ++ [x]) d) (.call (.create (target ++ [n])) fun _ =>
          .try (.copy (source ++ [n]) (target ++ [n])) k fun _ => copyLoop target source k es) :=
        Kept.call (fun h => hne h) fun _ => Kept.try (fun h => hne h) hk fun _ => ih
      simp only
      by_cases hh : handWritten n = true
      · rw [if_pos hh]
        refine Kept.try (fun h => h) hk fun r => ?_
        split
        · exact ih
        · exact go
      · rw [if_neg hh]
        exact go

theorem copyDir_kept {target source : Path} {k : Prog} {x : String} {d} (hx : handWritten x = true)
    (hk : Within (Kept (target ++ [x]) d) k) : Within (Kept (target ++ [x]) d) (copyDir target source k) := by
  unfold copyDir
  refine Kept.call (fun h => h) fun r => ?_
  split
  · refine Kept.try (fun h => h) hk fun r => ?_
    split
    · exact copyLoop_kept hx hk _
    · exact hk
  · exact Kept.ret _

theorem handWritten_iff {x : String} : handWritten x = true ↔ x = "hooked_calls.rs" ∨ x = "user_state.rs" := by
  simp [handWritten]

theorem writeFiles_kept {c : Config} {code : GeneratedCode} {x : String} {d} (hx : handWritten x = true) :
    Within (Kept (c.src ++ [x]) d) (writeFiles c code) := by
  have ne : ∀ y : String, handWritten y = false → c.src ++ [x] ≠ c.src ++ [y] := by
    intro y hy h
    have : x = y := by simpa using h
    rw [this, hy] at hx
    cases hx
  unfold writeFiles
  refine Kept.call (ne _ (by decide)) fun _ => Kept.call (ne _ (by decide)) fun _ => Kept.try (fun h => h) (Kept.ret _) fun r => ?_
  split
  · exact Kept.call (ne _ (by decide)) fun _ => Kept.try (ne _ (by decide)) (Kept.ret _) fun _ => Kept.ret _
  · exact Kept.ret _

theorem runCargo_kept {dir : Path} {k : Prog} {x : String} {d} (hx : handWritten x = true)
    (hk : Within (Kept (dir ++ ["src"] ++ [x]) d) k) : ∀ l, Within (Kept (dir ++ ["src"] ++ [x]) d) (runCargo dir k l)
  | [] => hk
  | _ :: l => by
    refine Kept.try ?_ (Kept.ret _) fun _ => runCargo_kept hx hk l
    rintro ⟨_, h1, h2⟩
    rw [List.append_assoc] at h1 h2
    rcases handWritten_iff.mp hx with rfl | rfl
    · exact h1 rfl
    · exact h2 rfl

theorem emitCrate_kept {c : Config} {code : GeneratedCode} {x : String} {d} (hx : handWritten x = true) :
    Within (Kept (c.src ++ [x]) d) (emitCrate c code) := by
  unfold emitCrate
  refine Kept.try (fun h => h) (Kept.ret _) fun _ => Kept.call (fun h => h) fun r => ?_
  split
  · exact Kept.ret _
  · exact runCargo_kept hx (copyDir_kept hx (writeFiles_kept hx)) _

theorem generateData_kept {ord : HashOrd} {fuel : Nat} {c : Config} {x : String} {d} (hx : handWritten x = true) :
    Within (Kept (c.src ++ [x]) d) (generateData ord fuel c) := by
  unfold generateData
  refine Kept.try (fun h => h) (Kept.ret _) fun r => ?_
  split
  · split
    · exact emitCrate_kept hx
    · exact Kept.ret _
    · exact Kept.ret _
    · exact Kept.ret _
  · exact Kept.ret _

theorem main_kept {ord : HashOrd} {fuel : Nat} {c : Config} {x : String} {d} (hx : handWritten x = true) :
    Within (Kept (c.src ++ [x]) d) (main ord fuel c) := by
  unfold main
  refine Kept.try (fun h => h) (Kept.ret _) fun _ => Kept.call (fun h => h) fun r => ?_
  have rest : Within (Kept (c.src ++ [x]) d) (Prog.try (.canonicalize c.core) (.ret .panic) fun _ => generateData ord fuel c) :=
    Kept.try (fun h => h) (Kept.ret _) fun _ => generateData_kept hx
  simp only
  split
  · exact Kept.try (fun h => h) (Kept.ret _) fun _ => rest
  · exact rest

end PP.Run
