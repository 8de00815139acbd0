import Verif.Model.Runner

/-! # Specification: what file system calls may do to a disk, also when they fail or the machine stops in the middle -/
namespace PP.Run
open PP.Gen

/-- The files a call may change the contents of (when it succeeds, fails half way, or is interrupted).  `cargo init` and
`cargo add` are assumed to work inside their directory, and not to touch the two hand-written files. -/
def Call.mayChange : Call → Path → Prop
  | .create p, q | .write p _, q | .remove p, q | .copy _ p, q => q = p
  | .cargo dir _, q => dir <+: q ∧ q ≠ dir ++ ["src", "hooked_calls.rs"] ∧ q ≠ dir ++ ["src", "user_state.rs"]
  | _, _ => False
/-- The directories a call may create. -/
def Call.mayCreate : Call → Path → Prop
  | .createDir p, q => q = p
  | .createDirAll p, q => q <+: p
  | .cargo dir _, q => dir <+: q ∧ q ≠ dir ++ ["src", "hooked_calls.rs"] ∧ q ≠ dir ++ ["src", "user_state.rs"]
  | _, _ => False

/-- Outside of what the call may change, the two disks agree. -/
def Changes (c : Call) (fs fs' : FS) : Prop :=
  (∀ p, fs'.file p = fs.file p ∨ c.mayChange p) ∧ ∀ p, fs'.dir p = fs.dir p ∨ c.mayCreate p

/-- Names of what is in a directory, once each. -/
def Lists (fs : FS) (p : Path) (l : List (Option String)) : Prop :=
  l.Nodup ∧ none ∉ l ∧ ∀ n, some n ∈ l ↔ fs.there (p ++ [n]) = true

/-- A call that succeeds: effect and answer. -/
inductive Succeeds : FS → Call → FS → Reply → Prop where
  | canonicalize {fs p} : fs.there p = true → Succeeds fs (.canonicalize p) fs .unit
  | createDirAll {fs p fs'} : Changes (.createDirAll p) fs fs' → fs'.dir p = true → Succeeds fs (.createDirAll p) fs' .unit
  | createDir {fs p} : fs.there p = false → Succeeds fs (.createDir p) { fs with dir := fun q => if q = p then true else fs.dir q } .unit
  | readString {fs p d} : fs.file p = some d → Succeeds fs (.readString p) fs (.bytes d)
  | cargo {fs dir args fs'} : Changes (.cargo dir args) fs fs' → Succeeds fs (.cargo dir args) fs' .unit
  | isDir {fs p} : Succeeds fs (.isDir p) fs (.bool (fs.dir p))
  | readDir {fs p l} : fs.dir p = true → Lists fs p l → Succeeds fs (.readDir p) fs (.names l)
  | exists {fs p} : Succeeds fs (.exists p) fs (.bool (fs.there p))
  | create {fs p} : fs.dir p.dropLast = true → fs.dir p = false → Succeeds fs (.create p) (fs.put p (some [])) .unit
  /-- the target is truncated before the source is read -/
  | copy {fs src dst d} : fs.dir dst.dropLast = true → fs.dir dst = false → (fs.file src).isSome → (fs.put dst (some [])).file src = some d →
      Succeeds fs (.copy src dst) (fs.put dst (some d)) .unit
  | write {fs p d} : fs.dir p.dropLast = true → fs.dir p = false → Succeeds fs (.write p d) (fs.put p (some d)) .unit
  | remove {fs p} : (fs.file p).isSome → Succeeds fs (.remove p) (fs.put p none) .unit

/-- What a call may do: succeed, or fail after any partial effect.  (`create_dir` fails with `AlreadyExists` if something is
there; `is_dir` does not fail but answers `false`; reading a directory may find unreadable entries.) -/
inductive Does : FS → Call → FS → Reply → Prop where
  | succeeds {fs c fs' r} : Succeeds fs c fs' r → Does fs c fs' r
  | fails {fs c fs'} : Changes c fs fs' → Does fs c fs' (.err false)
  | already {fs p} : fs.there p = true → Does fs (.createDir p) fs (.err true)
  | notDir {fs p} : Does fs (.isDir p) fs (.bool false)
  | unreadable {fs p l} : Does fs (.readDir p) fs (.names l)

/-- `OnDisk fs P fs'`: running `P` from `fs`, at some moment (between two calls, or in the middle of one) the disk is `fs'`. -/
inductive OnDisk : FS → Prog → FS → Prop where
  | now {fs P} : OnDisk fs P fs
  | within {fs c k fs'} : Changes c fs fs' → OnDisk fs (.call c k) fs'
  | later {fs c k fs₁ r fs'} : Does fs c fs₁ r → OnDisk fs₁ (k r) fs' → OnDisk fs (.call c k) fs'

/-- `Ends fs P fs' o`: running `P` from `fs` may end with disk `fs'` and outcome `o`. -/
inductive Ends : FS → Prog → FS → Outcome → Prop where
  | ret {fs o} : Ends fs (.ret o) fs o
  | call {fs c k fs₁ r fs' o} : Does fs c fs₁ r → Ends fs₁ (k r) fs' o → Ends fs (.call c k) fs' o

/-- Like `Ends`, with no call failing (an existing directory is not a failure). -/
inductive EndsSmoothly : FS → Prog → FS → Outcome → Prop where
  | ret {fs o} : EndsSmoothly fs (.ret o) fs o
  | call {fs c k fs₁ r fs' o} : Succeeds fs c fs₁ r → EndsSmoothly fs₁ (k r) fs' o → EndsSmoothly fs (.call c k) fs' o
  | already {fs p k fs' o} : fs.there p = true → EndsSmoothly fs (k (.err true)) fs' o → EndsSmoothly fs (.call (.createDir p) k) fs' o

/-- Any number of runs of programs satisfying `R`, each complete or broken off at any moment. -/
inductive AfterRuns (R : Prog → Prop) : FS → FS → Prop where
  | none {fs} : AfterRuns R fs fs
  | more {fs P fs₁ fs'} : R P → OnDisk fs P fs₁ → AfterRuns R fs₁ fs' → AfterRuns R fs fs'

end PP.Run
