import Verif.Props.Script
import Verif.Props.CompileCalc

/-! # C93: the crate on the disk, and the program that the executed texts make -/
namespace PP.Run
open PP.Gen
variable {ord : HashOrd} {fuel : Nat} {c : Config} {fs fs' : FS} {k : Nat} {T : GeneratorText} {Q : Mini.Prog}

/-- C93: the crate that a successful run of the command line program leaves on the disk is the program that the text of the generator, executed on the grammar
file, makes (of any generation of the generator); so what is shown of the latter (C90, C92) is true of the crate on the disk. -/
theorem C93_crate_on_disk_is_compiled {user : List Bytes} {src : Bytes} (hT : Generation k T) (hsm : src.length < 82000000) (ha : Rs.ascii src = true)
    (hl : ∀ g : DGrammar, g.WF → g.text = src → g.Low) (hQ : T.Compiles user src Q) (hs : fs.file c.source = some src)
    (hap : c.Apart) (hcore : fs.dir c.coreSrc = true) (hc : fs.Holds c.coreSrc coreNames Mini.coreFilesOfParser) (hu : fs.UserFiles c user)
    (h : EndsSmoothly fs (main ord fuel c) fs' .success) : fs'.IsProgram c.src Q := by
  obtain ⟨code, hg⟩ := success_code hs (main_smooth h)
  obtain ⟨N, hN⟩ := C90_every_generation hT src hsm ha hl
  obtain ⟨a, b, M, h1, h2⟩ := hQ
  obtain ⟨rfl, rfl⟩ := generates_det (h1 (max N M) (by omega)) ((hN (max N M) (by omega)).2.1 _ _ _ hg)
  exact ⟨_, (C93_crate_on_disk hs hg hap hcore hc hu h).2, h2⟩

end PP.Run
