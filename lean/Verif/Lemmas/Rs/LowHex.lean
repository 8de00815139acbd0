import Verif.Spec.Rs.LowHex

/-! # Deciding `Low` -/
namespace PP.Gen

def DStr.low : DStr → Bool
  | .hex ds => match fromHex ds with
    | some v => v < 128
    | none => true
  | _ => true

mutual
def DRhs.low : DRhs → Bool
  | .atom _ a => a.low
  | .chain _ _ a as => a.low && as.low
def DAtoms.low : DAtoms → Bool
  | .one _ a => a.low
  | .cons _ a as => a.low && as.low
def DAtom.low : DAtom → Bool
  | .plain n => n.low
  | .pre _ n => n.low
  | .post _ n _ => n.low
def DNuc.low : DNuc → Bool
  | .mk c _ => c.low
def DCore.low : DCore → Bool
  | .hook _ r => r.low
  | .sub r => r.low
  | .str s => s.low
  | _ => true
end

def DGrammar.low (g : DGrammar) : Bool := g.all fun r => r.rhs.low

theorem DStr.low_low : ∀ {s : DStr}, s.low = true → s.Low
  | .hex ds, h => fun v hv => by
    simp only [DStr.low] at h
    rw [hv] at h
    simpa using h
  | .quoted _, _ => trivial
  | .int _, _ => trivial

mutual
theorem DRhs.low_low : ∀ {r : DRhs}, r.low = true → r.Low
  | .atom _ a, h => by unfold DRhs.low at h; unfold DRhs.Low; exact DAtom.low_low h
  | .chain _ _ a as, h => by
    unfold DRhs.low at h; unfold DRhs.Low
    rw [Bool.and_eq_true] at h
    exact ⟨DAtom.low_low h.1, DAtoms.low_low h.2⟩
theorem DAtoms.low_low : ∀ {r : DAtoms}, r.low = true → r.Low
  | .one _ a, h => by unfold DAtoms.low at h; unfold DAtoms.Low; exact DAtom.low_low h
  | .cons _ a as, h => by
    unfold DAtoms.low at h; unfold DAtoms.Low
    rw [Bool.and_eq_true] at h
    exact ⟨DAtom.low_low h.1, DAtoms.low_low h.2⟩
theorem DAtom.low_low : ∀ {r : DAtom}, r.low = true → r.Low
  | .plain n, h => by unfold DAtom.low at h; unfold DAtom.Low; exact DNuc.low_low h
  | .pre _ n, h => by unfold DAtom.low at h; unfold DAtom.Low; exact DNuc.low_low h
  | .post _ n _, h => by unfold DAtom.low at h; unfold DAtom.Low; exact DNuc.low_low h
theorem DNuc.low_low : ∀ {r : DNuc}, r.low = true → r.Low
  | .mk c _, h => by unfold DNuc.low at h; unfold DNuc.Low; exact DCore.low_low h
theorem DCore.low_low : ∀ {r : DCore}, r.low = true → r.Low
  | .hook _ r, h => by unfold DCore.low at h; unfold DCore.Low; exact DRhs.low_low h
  | .sub r, h => by unfold DCore.low at h; unfold DCore.Low; exact DRhs.low_low h
  | .str s, h => by unfold DCore.low at h; unfold DCore.Low; exact DStr.low_low h
  | .range .., _ => by unfold DCore.Low; trivial
  | .term _, _ => by unfold DCore.Low; trivial
  | .ref _, _ => by unfold DCore.Low; trivial
end

theorem DGrammar.low_low {g : DGrammar} (h : g.low = true) : g.Low := fun r hr => DRhs.low_low (List.all_eq_true.1 h r hr)

/-! A text without `0x` -/

theorem NoHex.mid {a b c s : Bytes} (h : NoHex s) (e : s = a ++ (b ++ c)) : NoHex b := fun x y hb => h (a ++ x) (y ++ c) (by simp [e, hb])

mutual
theorem DRhs.low_noHex : ∀ {r : DRhs}, NoHex r.text → r.Low
  | .atom w a, h => by
    unfold DRhs.Low
    exact DAtom.low_noHex (h.mid (a := w) (c := []) (by simp [DRhs.text]))
  | .chain o w a as, h => by
    unfold DRhs.Low
    exact ⟨DAtom.low_noHex (h.mid (a := w) (c := as.text o) (by simp [DRhs.text])), DAtoms.low_noHex (o := o) (h.mid (a := w ++ a.text) (c := []) (by simp [DRhs.text]))⟩
theorem DAtoms.low_noHex : ∀ {o : ChainOp} {r : DAtoms}, NoHex (r.text o) → r.Low
  | o, .one w a, h => by
    unfold DAtoms.Low
    exact DAtom.low_noHex (h.mid (a := o.byte :: w) (c := []) (by simp [DAtoms.text]))
  | o, .cons w a as, h => by
    unfold DAtoms.Low
    exact ⟨DAtom.low_noHex (h.mid (a := o.byte :: w) (c := as.text o) (by simp [DAtoms.text])), DAtoms.low_noHex (o := o) (h.mid (a := o.byte :: (w ++ a.text)) (c := []) (by simp [DAtoms.text]))⟩
theorem DAtom.low_noHex : ∀ {r : DAtom}, NoHex r.text → r.Low
  | .plain n, h => by
    unfold DAtom.Low
    exact DNuc.low_noHex (h.mid (a := []) (c := []) (by simp [DAtom.text]))
  | .pre o n, h => by
    unfold DAtom.Low
    exact DNuc.low_noHex (h.mid (a := [o.byte]) (c := []) (by simp [DAtom.text]))
  | .post o n w, h => by
    unfold DAtom.Low
    exact DNuc.low_noHex (h.mid (a := []) (c := o.byte :: w) (by simp [DAtom.text]))
theorem DNuc.low_noHex : ∀ {r : DNuc}, NoHex r.text → r.Low
  | .mk c w, h => by
    unfold DNuc.Low
    exact DCore.low_noHex (h.mid (a := []) (c := w) (by simp [DNuc.text]))
theorem DCore.low_noHex : ∀ {r : DCore}, NoHex r.text → r.Low
  | .hook name r, h => by
    unfold DCore.Low
    exact DRhs.low_noHex (h.mid (a := name ++ [40]) (c := [41]) (by simp [DCore.text]))
  | .sub r, h => by
    unfold DCore.Low
    exact DRhs.low_noHex (h.mid (a := [40]) (c := [41]) (by simp [DCore.text]))
  | .str (.hex ds), h => absurd (by simp [DCore.text, DStr.text, hexText]) (h [] ds)
  | .str (.quoted _), _ => by unfold DCore.Low; trivial
  | .str (.int _), _ => by unfold DCore.Low; trivial
  | .range .., _ => by unfold DCore.Low; trivial
  | .term _, _ => by unfold DCore.Low; trivial
  | .ref _, _ => by unfold DCore.Low; trivial
end

theorem DGrammar.low_noHex : ∀ {g : DGrammar}, NoHex g.text → g.Low
  | [], _, _, hr => by cases hr
  | r :: g, h, r', hr => by
    rcases List.mem_cons.1 hr with rfl | hr
    · exact DRhs.low_noHex (h.mid (a := 60 :: (r'.name ++ 62 :: (r'.sep.text ++ [61]))) (c := 59 :: (r'.w ++ commentsText r'.comments) ++ DGrammar.text g)
        (by simp [DGrammar.text, DRule.text]))
    · exact DGrammar.low_noHex (g := g) (h.mid (a := r.text) (c := []) (by simp [DGrammar.text])) _ hr

end PP.Gen
