import Verif.Model.Gen.Generate

/-! # Model of runner/src (the command line program) and of the file contents it writes -/
namespace PP.Run
open PP.Gen

/-- Canonical absolute paths, as components from the root.  Symbolic links, `..` and case-insensitive file systems are not
modelled: different component lists are different files. -/
abbrev Path := List String

/-- The part of a disk that matters: regular files with their contents, and directories. -/
structure FS where
  file : Path → Option Bytes
  dir : Path → Bool

/-- Something is there. -/
def FS.there (fs : FS) (p : Path) : Bool := (fs.file p).isSome || fs.dir p
/-- The file at `p` gets new contents (`none`: is removed). -/
def FS.put (fs : FS) (p : Path) (d : Option Bytes) : FS := { fs with file := fun q => if q = p then d else fs.file q }

/-- The calls of `std::fs`, `std::path` and `std::process` the runner makes. -/
inductive Call where
  /-- `Path::canonicalize`: fails if nothing is there -/
  | canonicalize (p : Path)
  | createDirAll (p : Path)
  | createDir (p : Path)
  /-- `fs::read_to_string`, `fs::read` followed by `String::from_utf8` -/
  | readString (p : Path)
  /-- `Command::new("cargo").current_dir(dir).args(args).spawn()` and `wait()` -/
  | cargo (dir : Path) (args : List String)
  | isDir (p : Path)
  /-- `fs::read_dir`, all entries at once; an entry that cannot be read is `none` -/
  | readDir (p : Path)
  | exists (p : Path)
  /-- `File::create`: truncates -/
  | create (p : Path)
  | copy (src dst : Path)
  | write (p : Path) (d : Bytes)
  | remove (p : Path)
  deriving DecidableEq

/-- Answers; `err true` is an error of kind `AlreadyExists`. -/
inductive Reply where
  | unit
  | bool (b : Bool)
  | bytes (d : Bytes)
  | names (l : List (Option String))
  | err (already : Bool)
  deriving DecidableEq

/-- How the program ends: `main` prints "Success" or "Error: ..", panics, exits with code 1, or never gets there because the
generator does not return. -/
inductive Outcome where
  | success | error | panic | exit | hang
  deriving DecidableEq

/-- The program as a tree of calls. -/
inductive Prog where
  | ret (r : Outcome)
  | call (c : Call) (k : Reply → Prog)

/-- Continue with the answer of a call, or with something else if it failed. -/
def Prog.try (c : Call) (onErr : Prog) (k : Reply → Prog) : Prog :=
  .call c fun
    | .err _ => onErr
    | r => k r

/-! ## File contents -/

/-- generator/src/constructor.rs:54-60 -/
def parserHeader : Bytes :=
  utf8Of "#![allow(non_camel_case_types)] // Generated Code kinda annoying to deal with so w/e\n" ++
  utf8Of "#![allow(unused_variables)] // Generated Code also, since everything passes stuff\n" ++
  utf8Of "#![allow(unused_imports)] // Generated Code also, since everything passes stuff\n" ++
  utf8Of "use crate::*;\nuse std::cell::RefCell;"

/-- generator/src/constructor.rs:62-70: the import of the hooked calls, one entry per hooked call written in the grammar -/
def hookImport (hooks : List Bytes) : Bytes :=
  if hooks.isEmpty then [] else utf8Of "use crate::hooked_calls::{" ++ List.intercalate (utf8Of ",") hooks ++ utf8Of "};"

/-- generator/src/constructor.rs:93-99 `parser_file_content` -/
def parserFile (c : GeneratedCode) : Bytes :=
  parserHeader ++ hookImport c.hookImports ++ utf8Of "\n" ++ (c.rules.map RuleCode.text).flatten

/-- generator/src/constructor.rs:36-47, 51-53 -/
def rulesHeader : Bytes :=
  utf8Of "#![allow(non_camel_case_types)] // Again due to generation -> Might solve eventually\n" ++
  utf8Of "use num_derive::FromPrimitive;\nimpl From<u32> for Rules {\n    fn from(i: u32) -> Rules {\n" ++
  utf8Of "        let element = num::FromPrimitive::from_u32(i);\n        match element {\n" ++
  utf8Of "            Some(rule) => rule,\n            None => panic!(\"Not a valid Rule\"),\n        }\n    }\n}\n" ++
  utf8Of "#[allow(dead_code)]\npub static RULES_SIZE: u32 =  "

/-- generator/src/constructor.rs:48-50, 154 -/
def rulesHeader2 : Bytes :=
  utf8Of ";\n#[allow(clippy::upper_case_acronyms)] // Again due to generation -> Might solve eventually\n" ++
  utf8Of "#[derive(PartialEq, Eq, Hash, FromPrimitive, Clone, Copy, Debug, Ord, PartialOrd)]\n\npub enum Rules {\n"

/-- generator/src/constructor.rs:101-107 `rules_enum_file_content`, with the enum of lines 153-174 -/
def rulesFile (c : GeneratedCode) : Bytes :=
  rulesHeader ++ decimal c.numRules ++ rulesHeader2 ++ (c.variants.map fun v => utf8Of "\t" ++ v ++ utf8Of ",\n").flatten ++ utf8Of "\n}"

/-- generator/src/constructor.rs:88-91 `sample_main_header` -/
def mainHeader (name : String) : Bytes :=
  bytesOf (s!"use {String.ofList (name.toList.map fun c => if c = '-' then '_' else c)}::*;\n")

/-! ## runner/src/data.rs -/

/-- runner/src/data.rs:8-14 `struct DataGenerator` (`cargo` is the field `offline`: true means that cargo is to be run) -/
structure Config where
  name : String
  target : Path
  core : Path
  source : Path
  cargo : Bool

/-- `self.target_dir.canonicalize().unwrap().join(&self.name)` (the name a plain file name) -/
def Config.crate (c : Config) : Path := c.target ++ [c.name]
/-- `path.join("src")` -/
def Config.src (c : Config) : Path := c.crate ++ ["src"]
/-- `self.parser_core_dir.join("src")` -/
def Config.coreSrc (c : Config) : Path := c.core ++ ["src"]

/-- runner/src/data.rs:129 the file names that are not overwritten -/
def handWritten (n : String) : Bool := n = "hooked_calls.rs" ∨ n = "user_state.rs"

/-- The loop of runner/src/data.rs:124-151; `k` is what follows `copy_dir_contents_to_dir`, whose errors are ignored. -/
def copyLoop (target source : Path) (k : Prog) : List (Option String) → Prog
  | [] => k
  | none :: _ => k
  | some n :: es =>
    let go := Prog.call (.create (target ++ [n])) fun _ =>
      .try (.copy (source ++ [n]) (target ++ [n])) k fun _ => copyLoop target source k es
    if handWritten n then
      .try (.exists (target ++ [n])) k fun r => if r = .bool true then copyLoop target source k es else go
    else go

/-- runner/src/data.rs:121-158 `copy_dir_contents_to_dir` -/
def copyDir (target source : Path) (k : Prog) : Prog :=
  .call (.isDir source) fun r =>
    if r = .bool true then
      .try (.readDir source) k fun
        | .names es => copyLoop target source k es
        | _ => k
    else .ret .panic

/-- runner/src/data.rs:104-115: everything after the copying -/
def writeFiles (c : Config) (code : GeneratedCode) : Prog :=
  .call (.write (c.src ++ ["rules.rs"]) (rulesFile code)) fun _ =>
  .call (.write (c.src ++ ["parser.rs"]) (parserFile code)) fun _ =>
  .try (.readString (c.coreSrc ++ ["sample_main.txt"])) (.ret .error) fun
    | .bytes d =>
      .call (.write (c.src ++ ["main.rs"]) (mainHeader c.name ++ d)) fun _ =>
      .try (.remove (c.src ++ ["sample_main.txt"])) (.ret .error) fun _ => .ret .success
    | _ => .ret .error

/-- runner/src/data.rs:64-99: the cargo commands, if any, in order; failing to start one panics -/
def cargoCommands (c : Config) : List (List String) :=
  if c.cargo then [["init"], ["add", "num"], ["add", "num-derive"], ["add", "num-traits"], ["add", "clap", "--features", "derive"]]
  else []
def runCargo (dir : Path) (k : Prog) : List (List String) → Prog
  | [] => k
  | args :: rest => .try (.cargo dir args) (.ret .panic) fun _ => runCargo dir k rest

/-- runner/src/data.rs:50-118 `generate_data` from line 53 on, with 160-175 `create_dir` -/
def emitCrate (c : Config) (code : GeneratedCode) : Prog :=
  .try (.canonicalize c.target) (.ret .panic) fun _ =>
  .call (.createDir c.crate) fun r =>
    if r = .err false then .ret .exit
    else runCargo c.crate (copyDir c.src c.coreSrc (writeFiles c code)) (cargoCommands c)

/-- runner/src/data.rs:42-48, 50-118 `generate_data`: generation comes first.  `ord` and `fuel` are those of the generator. -/
def generateData (ord : HashOrd) (fuel : Nat) (c : Config) : Prog :=
  .try (.readString c.source) (.ret .panic) fun
    | .bytes src =>
      match generateParser ord fuel src with
      | .ok (.code code) => emitCrate c code
      | .ok (.syntaxError _) => .ret .panic
      | .panic _ => .ret .panic
      | .oof => .ret .hang
    | _ => .ret .panic

/-- runner/src/main.rs:28-62 `main` with data.rs:16-40 `new`, `verify` -/
def main (ord : HashOrd) (fuel : Nat) (c : Config) : Prog :=
  .try (.canonicalize c.source) (.ret .panic) fun _ =>
  .call (.canonicalize c.target) fun r =>
    let rest := Prog.try (.canonicalize c.core) (.ret .panic) fun _ => generateData ord fuel c
    match r with
    | .err _ => .try (.createDirAll c.target) (.ret .panic) fun _ => rest
    | _ => rest

end PP.Run
