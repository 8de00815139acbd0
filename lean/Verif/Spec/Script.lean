import Verif.Spec.Disk
import Verif.Spec.Mini.Files
import Verif.Spec.Mini.Runs
import Verif.Spec.Compile

/-! # Specification: programs on a disk, and the script update_parsers.sh -/
namespace PP.Run
open PP.Gen

/-- The source files of a parser crate, in the order in which they are read here (lib.rs, which only declares the modules and their imports, and main.rs, C72,
are left out): the core, the user's two files, the generated two. -/
def coreNames : List String :=
  ["keys.rs", "source.rs", "cache.rs", "publisher.rs", "context.rs", "parser_core.rs", "var_name.rs", "parse.rs"]
def userNames : List String := ["user_state.rs", "hooked_calls.rs"]
def crateNames : List String := coreNames ++ userNames ++ ["rules.rs", "parser.rs"]

/-- The files of these names in the directory are all there, with these contents. -/
def FS.Holds (fs : FS) (dir : Path) (names : List String) (contents : List Bytes) : Prop :=
  names.map (fun n => fs.file (dir ++ [n])) = contents.map some

/-- The crate in the directory is the program `Q`. -/
def FS.IsProgram (fs : FS) (dir : Path) (Q : Mini.Prog) : Prop :=
  ∃ contents, fs.Holds dir crateNames contents ∧ Mini.readCrate contents = some Q

/-- What the user's two files are going to be: those of the crate, where it has them, otherwise those of the core. -/
def FS.UserFiles (fs : FS) (c : Config) (contents : List Bytes) : Prop :=
  userNames.map (fun n => if fs.there (c.src ++ [n]) = true then fs.file (c.src ++ [n]) else fs.file (c.coreSrc ++ [n])) = contents.map some

/-- The command line program, run once for each configuration, every run ending with "Success" and no call failing. -/
inductive RunsInOrder : FS → List Config → FS → Prop
  | nil {fs} : RunsInOrder fs [] fs
  | cons {fs c cs fs₁ fs' ord fuel} : EndsSmoothly fs (main ord fuel c) fs₁ .success → RunsInOrder fs₁ cs fs' → RunsInOrder fs (c :: cs) fs'

/-- A line of the script, and the files of the repository that belong to it: the directory and name of the grammar file, the name of the crate,
the contents of the grammar file, and of the crate. -/
structure Line where
  folder : String
  grammarName : String
  crateName : String
  grammar : Bytes
  user : List Bytes
  rulesRs : Bytes
  parserRs : Bytes

/-- update_parsers.sh:1-11 (the last line, `cargo fmt`, changes the layout of the files) -/
def script : List Line :=
  [⟨"example_1", "example_1.dsl", "example_1_parser", fileOf Files.ex1File, Mini.userFiles, fileOf Texts.ex1Rules, fileOf Texts.ex1Parser⟩,
   ⟨"example_2", "example_2.dsl", "example_2_parser", fileOf Files.ex2File, Mini.userFiles, fileOf Texts.ex2Rules, fileOf Texts.ex2Parser⟩,
   ⟨"example_3_basic_maths", "example_3_basic_maths.dsl", "example_3_basic_maths_parser", fileOf Files.ex3File, Mini.userFiles, fileOf Texts.ex3Rules, fileOf Texts.ex3Parser⟩,
   ⟨"example_4_full_maths", "example_4_full_maths.dsl", "example_4_full_maths_parser", fileOf Files.ex4File, Mini.userFiles, fileOf Texts.ex4Rules, fileOf Texts.ex4Parser⟩,
   ⟨"example_5_lr_num", "LR_num.dsl", "example_5_lr_num_parser", fileOf Files.ex5File, Mini.userFiles, fileOf Texts.ex5Rules, fileOf Texts.ex5Parser⟩,
   ⟨"example_6_term_and_fact", "term_and_fact.dsl", "example_6_term_and_fact_parser", fileOf Files.ex6File, Mini.userFiles, fileOf Texts.ex6Rules, fileOf Texts.ex6Parser⟩,
   ⟨"example_7_indirect_lr_num", "LR_num_indirect.dsl", "example_7_indirect_lr_num_parser", fileOf Files.ex7File, Mini.userFiles, fileOf Texts.ex7Rules, fileOf Texts.ex7Parser⟩,
   ⟨"example_8_indirect_lr_3_level", "LR_num_indirect_3_level.dsl", "example_8_indirect_lr_3_level_parser", fileOf Files.ex8File, Mini.userFiles, fileOf Texts.ex8Rules, fileOf Texts.ex8Parser⟩,
   ⟨"example_9_indirect_lr_5_level", "LR_num_indirect_5_level.dsl", "example_9_indirect_lr_5_level_parser", fileOf Files.ex9File, Mini.userFiles, fileOf Texts.ex9Rules, fileOf Texts.ex9Parser⟩,
   ⟨"example_10_basic_bench", "example_10_basic_bench.dsl", "example_10_basic_bench_parser", fileOf Files.ex10File, Mini.userFiles, fileOf Texts.ex10Rules, fileOf Texts.ex10Parser⟩,
   ⟨"example_11_external_rule_call", "example_11_external_rule_call.dsl", "example_11_external_rule_call_parser", fileOf Files.ex11File, Mini.ex11UserFiles,
     fileOf Texts.ex11Rules, fileOf Texts.ex11Parser⟩]

/-- The arguments of a line, run in the directory `root` of the repository.  (`--offline` means: without cargo.) -/
def Line.config (root : Path) (l : Line) : Config where
  name := l.crateName
  target := root ++ ["examples"]
  core := root ++ ["parser"]
  source := root ++ ["examples", l.folder, l.grammarName]
  cargo := false

/-- The directory of the crate's source files. -/
def Line.dir (root : Path) (l : Line) : Path := root ++ ["examples", l.crateName, "src"]

/-- The repository is on the disk, in the directory `root`. -/
structure Repository (fs : FS) (root : Path) : Prop where
  coreDir : fs.dir (root ++ ["parser", "src"]) = true
  core : fs.Holds (root ++ ["parser", "src"]) coreNames Mini.coreFilesOfParser
  grammar : ∀ l ∈ script, fs.file (root ++ ["examples", l.folder, l.grammarName]) = some l.grammar
  crate : ∀ l ∈ script, fs.Holds (l.dir root) crateNames (Mini.coreFiles ++ l.user ++ [l.rulesRs, l.parserRs])

/-- Files and directories of the repository are what they should be, so that nothing stands in the way of a run. -/
structure Regular (fs : FS) (root : Path) : Prop where
  dirs : ∀ p ∈ [["examples"], ["parser"]], fs.dir (root ++ p) = true
  crates : ∀ l ∈ script, fs.dir (root ++ ["examples", l.crateName]) = true ∧ fs.dir (l.dir root) = true ∧ ∀ n, fs.dir (l.dir root ++ [n]) = false
  listed : ∃ names : List String, names.Nodup ∧ "sample_main.txt" ∈ names ∧
    (∀ n, n ∈ names ↔ fs.there (root ++ ["parser", "src", n]) = true) ∧ ∀ n, fs.dir (root ++ ["parser", "src", n]) = false

end PP.Run
