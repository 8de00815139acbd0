import Verif.Lemmas.Script
import Verif.Props.Regenerate

/-! # C93: what the command line program leaves on the disk is a program; update_parsers.sh -/
namespace PP.Run
open PP.Gen
variable {ord : HashOrd} {fuel : Nat} {c : Config} {fs fs' : FS} {src : Bytes} {code : GeneratedCode} {o : Outcome}

/-- C93: a run in which no call fails leaves a crate that is made of the core's files, the user's (those of the crate if it had them, otherwise the core's)
and the two generated ones.  (So it is a program if these files are one.) -/
theorem C93_crate_on_disk {user : List Bytes} (hs : fs.file c.source = some src) (hg : generateParser ord fuel src = .ok (.code code)) (hap : c.Apart)
    (hcore : fs.dir c.coreSrc = true) (hc : fs.Holds c.coreSrc coreNames Mini.coreFilesOfParser) (hu : fs.UserFiles c user)
    (h : EndsSmoothly fs (main ord fuel c) fs' o) :
    o = .success ∧ fs'.Holds c.src crateNames (Mini.coreFilesOfParser ++ user ++ [rulesFile code, parserFile code]) :=
  let r := run_holds hs hg hap hcore hc hu (main_smooth h)
  ⟨r.1, r.2.1⟩

/-- C93, from the command line to a running parser: for a grammar without left recursion, the crate on the disk is a program whose `parse`, executed,
returns what PEG semantics gives for the grammar as written, and ends where PEG semantics gives a result. -/
theorem C93_crate_on_disk_computes_peg {g : DGrammar} {W : Bytes → Expr Bytes} (hw : g.WF) (hsm : g.text.length < 82000000)
    (hf : ∀ r ∈ g, r.rhs.Faithful) (hr : g.Runnable) (hsi : g.Simple) (hW : g.Means W) (hs : fs.file c.source = some g.text)
    (hap : c.Apart) (hcore : fs.dir c.coreSrc = true) (hc : fs.Holds c.coreSrc coreNames Mini.coreFilesOfParser) (hu : fs.UserFiles c Mini.userFiles)
    (h : EndsSmoothly fs (main ord fuel c) fs' .success) :
    ∃ Q, fs'.IsProgram c.src Q ∧ ∀ input : Bytes,
      (∀ n v h', Mini.runParse Q n input = .ok v h' → ∃ b q t, v = .tuple [.bool b, .int q, t] ∧ Peg W ⟨input⟩ Mini.startRule 0 b q) ∧
      ∀ b q, Peg W ⟨input⟩ Mini.startRule 0 b q →
        ∃ N, (∀ n, N ≤ n → ∃ t h', Mini.runParse Q n input = .ok (.tuple [.bool b, .int q, t]) h') ∨ ∀ n, N ≤ n → Mini.runParse Q n input = .panic := by
  obtain ⟨code, hg⟩ := success_code hs (main_smooth h)
  obtain ⟨Q, hQ, H⟩ := Mini.C77_generated_crate_computes_peg hw hsm hg hf hr hsi hW
  exact ⟨Q, ⟨_, (C93_crate_on_disk hs hg hap hcore hc hu h).2, hQ⟩, H⟩

/-! ## update_parsers.sh -/

/-- What is known of the files of a line. -/
theorem line_remakes : ∀ l ∈ script, ∃ (code : GeneratedCode) (Q Q' : Mini.Prog), (∀ ord : HashOrd, ∃ N, ∀ n, N ≤ n → generateParser ord n l.grammar = .ok (.code code)) ∧
    Mini.readCrate (Mini.coreFilesOfParser ++ l.user ++ [rulesFile code, parserFile code]) = some Q ∧
    Mini.readCrate (Mini.coreFiles ++ l.user ++ [l.rulesRs, l.parserRs]) = some Q' ∧ Mini.SameRuns Q Q' ∧ l.grammar.length < 82000000 := by
  have mk : ∀ {file : Bytes} {crate : List Bytes}, Mini.Remakes file crate → file.length < 82000000 →
      ∃ (code : GeneratedCode) (Q Q' : Mini.Prog), (∀ ord : HashOrd, ∃ N, ∀ n, N ≤ n → generateParser ord n file = .ok (.code code)) ∧
        Mini.readCrate (Mini.coreFilesOfParser ++ Mini.userFiles ++ [rulesFile code, parserFile code]) = some Q ∧
        Mini.readCrate crate = some Q' ∧ Mini.SameRuns Q Q' ∧ file.length < 82000000 := by
    rintro file crate ⟨code, Q, Q', h1, h2, h3, h4⟩ h5
    exact ⟨code, Q, Q', h1, h2, h3, h4, h5⟩
  intro l hl
  simp only [script, List.mem_cons, List.not_mem_nil, or_false] at hl
  rcases hl with rfl | rfl | rfl | rfl | rfl | rfl | rfl | rfl | rfl | rfl | rfl
  · exact mk Mini.C82_example1_remade (ex1Ok.file ▸ ex1Ok.length)
  · exact mk Mini.C82_example2_remade (ex2Ok.file ▸ ex2Ok.length)
  · exact mk Mini.C82_example3_remade (ex3Ok.file ▸ ex3Ok.length)
  · exact mk Mini.C82_example4_remade (ex4Ok.file ▸ ex4Ok.length)
  · exact mk Mini.C82_example5_remade (ex5Ok.file ▸ ex5Ok.length)
  · exact mk Mini.C82_example6_remade (ex6Ok.file ▸ ex6Ok.length)
  · exact mk Mini.C82_example7_remade (ex7Ok.file ▸ ex7Ok.length)
  · exact mk Mini.C82_example8_remade (ex8Ok.file ▸ ex8Ok.length)
  · exact mk Mini.C82_example9_remade (ex9Ok.file ▸ ex9Ok.length)
  · exact mk Mini.C82_example10_remade (ex10Ok.file ▸ ex10Ok.length)
  · obtain ⟨code, Q, Q', h1, h2, h3, h4⟩ := Mini.C82_example11_remade
    exact ⟨code, Q, Q', h1, h2, h3, h4, ex11Ok.file ▸ ex11Ok.length⟩

theorem names_apart : ∀ l ∈ script, ∀ l' ∈ script, l.crateName ≠ l'.folder := by
  have : ((script.map Line.crateName).all fun x => (script.map Line.folder).all fun y => x != y) = true := by decide +kernel
  intro l hl l' hl'
  simp only [List.all_eq_true, bne_iff_ne] at this
  exact this _ (List.mem_map_of_mem hl) _ (List.mem_map_of_mem hl')

theorem names_nodup : script.Pairwise fun l l' => l.crateName ≠ l'.crateName := by
  have : (script.map Line.crateName).Nodup := by decide +kernel
  exact List.pairwise_map.mp this

section
variable {root : Path} {l : Line}

theorem Line.src_eq : (l.config root).src = l.dir root := by simp [Config.src, Config.crate, Line.config, Line.dir]
theorem Line.crate_eq : (l.config root).crate = root ++ ["examples", l.crateName] := by simp [Config.crate, Line.config]
theorem Line.coreSrc_eq : (l.config root).coreSrc = root ++ ["parser", "src"] := by simp [Config.coreSrc, Line.config]
theorem Line.apart : (l.config root).Apart := by
  rw [Config.Apart, Line.crate_eq, show (l.config root).core = root ++ ["parser"] from rfl, List.prefix_append_right_inj, List.prefix_append_right_inj]
  simp
theorem Line.out_core (n : List String) : ¬ (l.config root).crate <+: root ++ "parser" :: n := by
  rw [Line.crate_eq, List.prefix_append_right_inj]; simp
theorem Line.out_grammar {l' : Line} (hl : l ∈ script) (hl' : l' ∈ script) : ¬ (l.config root).crate <+: root ++ ["examples", l'.folder, l'.grammarName] := by
  rw [Line.crate_eq, List.prefix_append_right_inj]
  simpa using names_apart l hl l' hl'
theorem Line.out_crate {l' : Line} (h : l.crateName ≠ l'.crateName) (n : List String) : ¬ (l.config root).crate <+: root ++ "examples" :: l'.crateName :: n := by
  rw [Line.crate_eq, List.prefix_append_right_inj]
  simpa using h

/-- What stays the same during the script. -/
structure Base (fs : FS) (root : Path) : Prop where
  coreDir : fs.dir (root ++ ["parser", "src"]) = true
  core : fs.Holds (root ++ ["parser", "src"]) coreNames Mini.coreFilesOfParser
  grammar : ∀ l ∈ script, fs.file (root ++ ["examples", l.folder, l.grammarName]) = some l.grammar

theorem user_of_holds {user : List Bytes} (h : fs.Holds c.src userNames user) : fs.UserFiles c user := by
  unfold FS.UserFiles
  rw [← h]
  refine List.map_congr_left fun n hn => ?_
  obtain ⟨d, hd⟩ := holds_there h hn
  rw [if_pos (by simp [FS.there, hd])]

/-- One line. -/
theorem line_run (hl : l ∈ script) (hb : Base fs root) (hu : fs.Holds (l.dir root) userNames l.user) {ord : HashOrd} {fuel : Nat}
    (h : EndsSmoothly fs (main ord fuel (l.config root)) fs' .success) : ∃ code Q Q', fs'.Holds (l.dir root) crateNames
      (Mini.coreFilesOfParser ++ l.user ++ [rulesFile code, parserFile code]) ∧
      Mini.readCrate (Mini.coreFilesOfParser ++ l.user ++ [rulesFile code, parserFile code]) = some Q ∧
      Mini.readCrate (Mini.coreFiles ++ l.user ++ [l.rulesRs, l.parserRs]) = some Q' ∧ Mini.SameRuns Q Q' ∧
      (∀ q, ¬ (l.config root).crate <+: q → fs'.file q = fs.file q) ∧ ∀ q, q ≠ (l.config root).crate → fs'.dir q = fs.dir q := by
  obtain ⟨code, Q, Q', h1, h2, h3, h4, h5⟩ := line_remakes l hl
  have hs : fs.file (l.config root).source = some l.grammar := hb.grammar l hl
  obtain ⟨code', hg⟩ := success_code hs (main_smooth h)
  obtain ⟨N, hN⟩ := h1 ord
  have := C26_generator_order_independent h5 ord ord (n := fuel) (n' := N) (by rw [hg]; simp) (by rw [hN N (Nat.le_refl _)]; simp)
  rw [hg, hN N (Nat.le_refl _)] at this
  obtain rfl : code' = code := by simpa using this
  have hcd : fs.dir (l.config root).coreSrc = true := by rw [Line.coreSrc_eq]; exact hb.coreDir
  obtain ⟨-, r2, r3⟩ := run_holds hs hg Line.apart hcd (by rw [Line.coreSrc_eq]; exact hb.core) (user_of_holds (by rw [Line.src_eq]; exact hu)) (main_smooth h)
  rw [Line.src_eq] at r2
  exact ⟨code', Q, Q', r2, h2, h3, h4, r3, (run_dirs hs hg Line.apart hcd (main_smooth h)).2 rfl⟩

theorem base_kept (hl : l ∈ script) (hb : Base fs root) (h : ∀ q, ¬ (l.config root).crate <+: q → fs'.file q = fs.file q)
    (hd : ∀ q, q ≠ (l.config root).crate → fs'.dir q = fs.dir q) : Base fs' root where
  coreDir := by rw [hd _ (by rw [Line.crate_eq]; simp)]; exact hb.coreDir
  core := Holds.same hb.core fun n _ => by rw [List.append_assoc]; exact h _ (Line.out_core _)
  grammar l' hl' := by rw [h _ (Line.out_grammar hl hl')]; exact hb.grammar l' hl'

theorem dir_other {l' : Line} (h : ∀ q, ¬ (l.config root).crate <+: q → fs'.file q = fs.file q) (hn : l.crateName ≠ l'.crateName) {names : List String}
    {contents : List Bytes} (hu : fs.Holds (l'.dir root) names contents) : fs'.Holds (l'.dir root) names contents :=
  Holds.same hu fun n _ => by rw [Line.dir, List.append_assoc]; exact h _ (Line.out_crate hn _)

theorem lines_run : ∀ (ls : List Line) (fs : FS), (∀ l ∈ ls, l ∈ script) → (ls.Pairwise fun l l' => l.crateName ≠ l'.crateName) → Base fs root →
    (∀ l ∈ ls, fs.Holds (l.dir root) userNames l.user) → RunsInOrder fs (ls.map (Line.config root)) fs' →
    Base fs' root ∧ (∀ q, (∀ l ∈ ls, ¬ (l.config root).crate <+: q) → fs'.file q = fs.file q) ∧
    ∀ l ∈ ls, ∃ code Q Q', fs'.Holds (l.dir root) crateNames (Mini.coreFilesOfParser ++ l.user ++ [rulesFile code, parserFile code]) ∧
      Mini.readCrate (Mini.coreFilesOfParser ++ l.user ++ [rulesFile code, parserFile code]) = some Q ∧
      Mini.readCrate (Mini.coreFiles ++ l.user ++ [l.rulesRs, l.parserRs]) = some Q' ∧ Mini.SameRuns Q Q'
  | [], fs, _, _, hb, _, h => by cases h; exact ⟨hb, fun _ _ => rfl, fun l hl => by simp at hl⟩
  | l :: ls, fs, hs, hp, hb, hu, h => by
    obtain ⟨hp1, hp2⟩ := List.pairwise_cons.mp hp
    have hl := hs l (List.mem_cons_self ..)
    cases h with
    | @cons _ _ _ fs₁ _ _ _ h1 h2 =>
      obtain ⟨code, Q, Q', k1, k2, k3, k4, k5, k6⟩ := line_run hl hb (hu l (List.mem_cons_self ..)) h1
      obtain ⟨r1, r2, r3⟩ := lines_run ls fs₁ (fun l hl => hs l (List.mem_cons_of_mem _ hl)) hp2 (base_kept hl hb k5 k6)
        (fun l' hl' => dir_other k5 (hp1 l' hl') (hu l' (List.mem_cons_of_mem _ hl'))) h2
      refine ⟨r1, fun q hq => ?_, fun l' hl' => ?_⟩
      · rw [r2 q fun l' hl' => hq l' (List.mem_cons_of_mem _ hl'), k5 q (hq l (List.mem_cons_self ..))]
      · rcases List.mem_cons.mp hl' with rfl | hl'
        · refine ⟨code, Q, Q', Holds.same k1 fun n _ => ?_, k2, k3, k4⟩
          rw [Line.dir, List.append_assoc]
          exact r2 _ fun l' hl' => Line.out_crate (fun e => hp1 l' hl' e.symm) _
        · exact r3 l' hl'

/-- A part of the files. -/
theorem holds_left {dir : Path} {a b : List String} {x y : List Bytes} (h : fs.Holds dir (a ++ b) (x ++ y)) (he : a.length = x.length) :
    fs.Holds dir a x ∧ fs.Holds dir b y := by
  unfold FS.Holds at *
  rw [List.map_append, List.map_append] at h
  exact List.append_inj h (by simpa using he)

theorem user_length : ∀ l ∈ script, l.user.length = 2 := by
  have : (script.all fun l => decide (l.user.length = 2)) = true := by decide +kernel
  intro l hl
  simpa using List.all_eq_true.mp this l hl

/-- C93, update_parsers.sh: if the repository is on the disk, running the script (all of it, no call failing) changes the files of the eleven crates only;
each crate is a program before and after, and the two cannot be told apart: they return the same on every input; the repository's grammar files and core are
as before, and so are the hand-written files of the crates. -/
theorem C93_update_parsers (hr : Repository fs root) (h : RunsInOrder fs (script.map (Line.config root)) fs') :
    (∀ l ∈ script, ∃ Q Q', fs.IsProgram (l.dir root) Q ∧ fs'.IsProgram (l.dir root) Q' ∧ Mini.SameRuns Q Q' ∧
      ∀ n ∈ userNames, fs'.file (l.dir root ++ [n]) = fs.file (l.dir root ++ [n])) ∧
    (∀ q, (∀ l ∈ script, ¬ root ++ ["examples", l.crateName] <+: q) → fs'.file q = fs.file q) := by
  have hu : ∀ l ∈ script, fs.Holds (l.dir root) userNames l.user := fun l hl => by
    have := hr.crate l hl
    exact (holds_left (holds_left this (by have := user_length l hl; simp [coreNames, userNames, Mini.coreFiles, this])).1 (by simp [coreNames, Mini.coreFiles])).2
  obtain ⟨-, h2, h3⟩ := lines_run script fs (fun _ h => h) names_nodup ⟨hr.coreDir, hr.core, hr.grammar⟩ hu h
  refine ⟨fun l hl => ?_, fun q hq => h2 q fun l hl => by rw [Line.crate_eq]; exact hq l hl⟩
  obtain ⟨code, Q, Q', k1, k2, k3, k4⟩ := h3 l hl
  refine ⟨Q', Q, ⟨_, hr.crate l hl, k3⟩, ⟨_, k1, k2⟩, ⟨fun i v => (k4.returns i v).symm, fun i => (k4.panics i).symm⟩, fun n hn => ?_⟩
  have e := (holds_left (holds_left k1 (by have := user_length l hl; simp [coreNames, userNames, Mini.coreFilesOfParser, this])).1
    (by simp [coreNames, Mini.coreFilesOfParser])).2
  unfold FS.Holds at e
  have := hu l hl
  unfold FS.Holds at this
  rw [← this] at e
  exact List.map_inj_left.mp e n hn

/-- C93: nothing stands in the way of the script on a repository whose files are regular. -/
theorem C93_update_parsers_runs (hr : Repository fs root) (hreg : Regular fs root) : ∃ fs', RunsInOrder fs (script.map (Line.config root)) fs' := by
  have key : ∀ (ls : List Line) (fs : FS), (∀ l ∈ ls, l ∈ script) → (ls.Pairwise fun l l' => l.crateName ≠ l'.crateName) → Base fs root → Regular fs root →
      (∀ l ∈ ls, fs.Holds (l.dir root) userNames l.user) → ∃ fs', RunsInOrder fs (ls.map (Line.config root)) fs' := by
    intro ls
    induction ls with
    | nil => exact fun fs _ _ _ _ _ => ⟨fs, .nil⟩
    | cons l ls ih =>
      intro fs hs hp hb hreg hu
      obtain ⟨hp1, hp2⟩ := List.pairwise_cons.mp hp
      have hl := hs l (List.mem_cons_self ..)
      obtain ⟨code, -, -, h1, -, -, -, -⟩ := line_remakes l hl
      obtain ⟨N, hN⟩ := h1 .id
      obtain ⟨names, n1, n2, n3, n4⟩ := hreg.listed
      obtain ⟨c1, c2, c3⟩ := hreg.crates l hl
      have cs : ∀ n, (l.config root).coreSrc ++ [n] = root ++ ["parser", "src", n] := fun n => by rw [Line.coreSrc_eq]; simp
      obtain ⟨fs₁, hf⟩ := run_exists (c := l.config root) (hb.grammar l hl) (hN N (Nat.le_refl _)) Line.apart rfl (hreg.dirs _ (by simp)) (hreg.dirs _ (by simp))
        (by rw [Line.crate_eq]; exact c1) (by rw [Line.src_eq]; exact c2) (by rw [Line.coreSrc_eq]; exact hb.coreDir)
        (fun n => by rw [Line.src_eq]; exact c3 n) n1 n2 (fun n => by rw [cs]; exact n3 n) (fun n => by rw [cs]; exact n4 n)
      obtain ⟨-, -, -, -, -, -, -, k5, k6⟩ := line_run hl hb (hu l (List.mem_cons_self ..)) hf
      have k7 : fs₁.dir = fs.dir := by
        funext q
        by_cases hq : q = (l.config root).crate
        · subst hq
          have hg : EndsSmoothly fs (generateData .id N (l.config root)) fs₁ .success := main_smooth hf
          rw [show fs.dir (l.config root).crate = true by rw [Line.crate_eq]; exact c1]
          exact run_keeps_crate (hb.grammar l hl) (hN N (Nat.le_refl _)) Line.apart (by rw [Line.coreSrc_eq]; exact hb.coreDir) rfl (by rw [Line.crate_eq]; exact c1) hg
        · exact k6 q hq
      have hreg' : Regular fs₁ root := by
        refine ⟨by rw [k7]; exact hreg.dirs, by rw [k7]; exact hreg.crates, names, n1, n2, fun n => ?_, by rw [k7]; exact n4⟩
        rw [n3 n, FS.there, FS.there, k7, k5 _ (Line.out_core _)]
      obtain ⟨fs', hfs'⟩ := ih fs₁ (fun l hl => hs l (List.mem_cons_of_mem _ hl)) hp2 (base_kept hl hb k5 k6) hreg'
        fun l' hl' => dir_other k5 (hp1 l' hl') (hu l' (List.mem_cons_of_mem _ hl'))
      exact ⟨fs', .cons hf hfs'⟩
  refine key script fs (fun _ h => h) names_nodup ⟨hr.coreDir, hr.core, hr.grammar⟩ hreg fun l hl => ?_
  have := hr.crate l hl
  exact (holds_left (holds_left this (by have := user_length l hl; simp [coreNames, userNames, Mini.coreFiles, this])).1 (by simp [coreNames, Mini.coreFiles])).2
end

/-! ### The hypotheses are met -/

/-- A disk on which there is the repository, in the root directory. -/
def demoRepository : FS where
  file p := match p with
    | ["parser", "src", n] => ((coreNames ++ userNames ++ ["sample_main.txt"]).zip (Mini.coreFilesOfParser ++ Mini.userFiles ++ [[]])).lookup n
    | ["examples", a, n] => (script.find? fun l => l.folder == a && l.grammarName == n).map Line.grammar
    | ["examples", a, "src", n] => (script.find? fun l => l.crateName == a).bind fun l =>
        (crateNames.zip (Mini.coreFiles ++ l.user ++ [l.rulesRs, l.parserRs])).lookup n
    | _ => none
  dir p := match p with
    | ["parser"] => true
    | ["parser", "src"] => true
    | ["examples"] => true
    | ["examples", a] => script.any fun l => l.crateName == a
    | ["examples", a, "src"] => script.any fun l => l.crateName == a
    | _ => false

theorem lookup_zip : ∀ (a : List String) (x : List Bytes), a.Nodup → a.length = x.length → a.map (fun n => (a.zip x).lookup n) = x.map some
  | [], [], _, _ => rfl
  | n :: a, b :: x, h, hl => by
    obtain ⟨h1, h2⟩ := List.nodup_cons.mp h
    rw [List.map_cons, List.map_cons, List.zip_cons_cons, List.lookup_cons_self, ← lookup_zip a x h2 (by simpa using hl)]
    congr 1
    refine List.map_congr_left fun m hm => ?_
    rw [List.lookup_cons, show (m == n) = false by simpa using fun (e : m = n) => h1 (e ▸ hm)]

theorem find_self {f : Line → Bool} : ∀ (ls : List Line) (l : Line), l ∈ ls → f l = true → (∀ l' ∈ ls, f l' = true → l'.crateName = l.crateName) →
    (ls.Pairwise fun l l' => l.crateName ≠ l'.crateName) → ls.find? f = some l
  | a :: ls, l, hl, hf, hu, hp => by
    obtain ⟨h1, h2⟩ := List.pairwise_cons.mp hp
    rcases List.mem_cons.mp hl with rfl | hl
    · simp [hf]
    · rw [List.find?_cons, show f a = false from ?_]
      · exact find_self ls l hl hf (fun l' hl' => hu l' (List.mem_cons_of_mem _ hl')) h2
      · cases h : f a with
        | false => rfl
        | true => exact absurd (hu a (List.mem_cons_self ..) h) (h1 l hl)

theorem folders_nodup : ∀ l ∈ script, ∀ l' ∈ script, l'.folder = l.folder → l'.crateName = l.crateName := by
  have : ((script.map fun l => (l.folder, l.crateName)).all fun x => (script.map fun l => (l.folder, l.crateName)).all fun y =>
      x.1 != y.1 || x.2 == y.2) = true := by decide +kernel
  intro l hl l' hl' e
  have := List.all_eq_true.mp (List.all_eq_true.mp this (l'.folder, l'.crateName) (List.mem_map_of_mem hl')) (l.folder, l.crateName) (List.mem_map_of_mem hl)
  simpa [e] using this

theorem grammar_not_src : ∀ l ∈ script, l.folder ≠ "src" := by
  have : ((script.map Line.folder).all fun x => x != "src") = true := by decide +kernel
  intro l hl
  simpa using List.all_eq_true.mp this _ (List.mem_map_of_mem hl)

theorem demo_repository : Repository demoRepository [] where
  coreDir := rfl
  core := by
    have := lookup_zip (coreNames ++ userNames ++ ["sample_main.txt"]) (Mini.coreFilesOfParser ++ Mini.userFiles ++ [[]]) (by decide +kernel) (by decide +kernel)
    rw [List.append_assoc, List.append_assoc, List.map_append, List.map_append] at this
    exact (List.append_inj this (by decide +kernel)).1
  grammar l hl := by
    show (script.find? _).map _ = _
    rw [find_self script l hl (by simp) (fun l' hl' h => folders_nodup l hl l' hl' (by simpa using (Bool.and_eq_true_iff.mp h).1)) names_nodup]
    rfl
  crate l hl := by
    have h := find_self (f := fun l' => l'.crateName == l.crateName) script l hl (by simp) (fun l' _ h => by simpa using h) names_nodup
    unfold FS.Holds
    rw [← lookup_zip crateNames _ (by decide +kernel) (by simp [crateNames, coreNames, userNames, Mini.coreFiles, user_length l hl])]
    refine List.map_congr_left fun n _ => ?_
    show (script.find? _).bind _ = _
    rw [h]; rfl

theorem demo_regular : Regular demoRepository [] where
  dirs := by decide
  crates l hl := by
    have h : (script.any fun l' => l'.crateName == l.crateName) = true := List.any_eq_true.mpr ⟨l, hl, by simp⟩
    exact ⟨h, h, fun n => rfl⟩
  listed := ⟨coreNames ++ userNames ++ ["sample_main.txt"], by decide +kernel, by decide +kernel, fun n => by
    show _ ↔ (Option.isSome (List.lookup n _) || false) = true
    have : ∀ (a : List String) (x : List Bytes), a.length = x.length → (n ∈ a ↔ ((a.zip x).lookup n).isSome = true) := by
      intro a
      induction a with
      | nil => intro x _; simp
      | cons b a ih =>
        intro x hx
        cases x with
        | nil => simp at hx
        | cons y x =>
          rw [List.zip_cons_cons, List.lookup_cons, List.mem_cons, ih x (by simpa using hx)]
          cases h : n == b with
          | true => simp only [beq_iff_eq] at h; simp [h]
          | false => simp only [beq_eq_false_iff_ne] at h; simp [h]
    rw [Bool.or_false]
    exact this _ _ (by decide +kernel), fun n => rfl⟩

/-- The script can be run on it. -/
example : ∃ fs', RunsInOrder demoRepository (script.map (Line.config [])) fs' ∧
    ∀ l ∈ script, ∃ Q Q', demoRepository.IsProgram (l.dir []) Q ∧ fs'.IsProgram (l.dir []) Q' ∧ Mini.SameRuns Q Q' := by
  obtain ⟨fs', h⟩ := C93_update_parsers_runs demo_repository demo_regular
  refine ⟨fs', h, fun l hl => ?_⟩
  obtain ⟨Q, Q', h1, h2, h3, -⟩ := (C93_update_parsers demo_repository h).1 l hl
  exact ⟨Q, Q', h1, h2, h3⟩

end PP.Run
