import Verif.Lemmas.Mini.Kernels

/-! # Terminals, and the functions that make closures -/
namespace PP.Mini
attribute [local congr] Res.bind_congr loopN_congr forN_congr

section
variable {R U : Type} {W : World R U} {d : Dir} {n : Nat} {f f' : Val} {g g' : PFn R U} {parent pos : Nat} {st : St R U} {h : Heap}

def encChar : Option UInt8 → Val
  | none => .none
  | some c => .some (.int c.toNat)

theorem len_lt (s : Source) : s.len < 4294967296 := Nat.mod_lt _ (by decide)
theorem getChar_lt {s : Source} {p : Nat} {c : UInt8} (h : s.getChar p = some c) : p < s.len := by
  unfold Source.getChar at h; split at h
  · assumption
  · simp at h

theorem get_char_run (W : World R U) (n p : Nat) (h : Heap) :
    run W.Q (n + 1) (.fn (some n!"Source") n!"get_char") [encSource W.src, .int p] h = .ok (encChar (W.src.getChar p)) h := by
  rw [run]
  simp only [W.core.f_Source_get_char, Ast.Source.get_char]
  by_cases hp : p < W.src.len
  · have hl : p < W.src.bytes.length := Nat.lt_of_lt_of_le hp (Nat.mod_le _ _)
    mini [encSource, project, follow, loadV, load, binop, hp, decide_true, callMethod, method, element, castTo, List.getElem?_eq_getElem hl,
      Source.getChar, encChar]
  · mini [encSource, project, follow, loadV, load, binop, hp, decide_false, global, Source.getChar, encChar]

theorem get_char_call (W : World R U) (n p : Nat) (h : Heap) :
    callMethod W.Q (run W.Q (n + 1)) n!"get_char" (encSource W.src) [.int p] h = .ok (encChar (W.src.getChar p)) h := by
  have e := get_char_run W n p h
  simp only [encSource] at e
  simp only [callMethod, encSource, follow, loadV, W.core.f_Source_get_char, Ast.Source.get_char, e]

theorem terminal_kernel_run (W : World R U) (n p : Nat) (c : UInt8) (h : Heap) :
    run W.Q (n + 2) (.fn none n!"_terminal_kernel") [encSource W.src, .int p, .int c.toNat] h =
      .ok (.tuple [.bool (terminalKernel W.src p c).1, .int (terminalKernel W.src p c).2]) h := by
  rw [run]
  simp only [W.core.f__terminal_kernel, Ast._terminal_kernel]
  mini [get_char_call]
  cases hc : W.src.getChar p with
  | none => mini [encChar, binop, valEq, terminalKernel, hc]
  | some x =>
    have h1 := getChar_lt hc
    have h2 := len_lt W.src
    by_cases e : x = c
    · subst e
      have h3 : p + 1 < 4294967296 := by omega
      mini [encChar, binop, valEq, atomEq, terminalKernel, hc, decide_true, h3]
    · have e' : ¬ x.toNat = c.toNat := fun h => e (UInt8.toNat_inj.mp h)
      mini [encChar, binop, valEq, atomEq, terminalKernel, hc, decide_false, e', Option.some.injEq, e]

theorem range_kernel_run (W : World R U) (n p lo hi : Nat) (h : Heap) :
    run W.Q (n + 2) (.fn none n!"_ordered_choice_match_range_kernel") [encSource W.src, .int p, .int lo, .int hi] h =
      .ok (.tuple [.bool (matchRangeKernel W.src p lo hi).1, .int (matchRangeKernel W.src p lo hi).2]) h := by
  rw [run]
  simp only [W.core.f__ordered_choice_match_range_kernel, Ast._ordered_choice_match_range_kernel]
  mini [get_char_call]
  cases hc : W.src.getChar p with
  | none => mini [encChar, matchRangeKernel, hc]
  | some x =>
    have h1 := getChar_lt hc
    have h2 := len_lt W.src
    have h3 : p + 1 < 4294967296 := by omega
    have h4 : x.toNat % 4294967296 = x.toNat := Nat.mod_eq_of_lt (Nat.lt_trans x.toNat_lt (by decide))
    by_cases e : lo ≤ x.toNat
    · by_cases e' : x.toNat ≤ hi
      · mini [encChar, castTo, h4, binop, matchRangeKernel, hc, e, e', decide_true, h3, ge_iff_le, and_self]
      · mini [encChar, castTo, h4, binop, matchRangeKernel, hc, e, e', decide_true, decide_false, h3, ge_iff_le, and_false]
    · mini [encChar, castTo, h4, binop, matchRangeKernel, hc, e, decide_false, h3, ge_iff_le, false_and]

/-- What is left of the loop of `_string_terminal_kernel_ascii_opt`. -/
theorem string_loop {step : Val → Heap → Res Val} {W : World R U} {p L : Nat}
    (h₁ : ∀ (c : UInt8) (q : Nat) (h : Heap), h[L]? = some (.int q) → W.src.getChar q = none →
      step (.int c.toNat) h = .ret (.tuple [.bool false, .int p]) h)
    (h₂ : ∀ (c : UInt8) (q : Nat) (h : Heap), h[L]? = some (.int q) → W.src.getChar q = some c →
      ∃ w, step (.int c.toNat) h = .ok w (h.set L (.int (q + 1))))
    (h₃ : ∀ (c s : UInt8) (q : Nat) (h : Heap), h[L]? = some (.int q) → W.src.getChar q = some s → c ≠ s →
      step (.int c.toNat) h = .ret (.tuple [.bool false, .int p]) h) :
    ∀ (l : List UInt8) (q : Nat) (h : Heap), L + 1 = h.length → h[L]? = some (.int q) →
      ∃ v, forN step (l.map fun c => .int c.toNat) h =
        if (stringTerminalLoop W.src p q l).1 then .ok .unit (h.take L ++ [.int (stringTerminalLoop W.src p q l).2])
        else .ret (.tuple [.bool false, .int (stringTerminalLoop W.src p q l).2]) (h.take L ++ [v])
  | [], q, h, hl, e => by
    refine ⟨.unit, ?_⟩
    have : h.take L ++ [Val.int q] = h := by
      have h1 := (List.getElem?_eq_some_iff.mp e)
      obtain ⟨h1, h2⟩ := h1
      rw [← h2]
      exact (List.take_append_getElem h1).trans (by rw [hl, List.take_length])
    simp [forN, stringTerminalLoop, this]
  | c :: l, q, h, hl, e => by
    have hh : h.take L ++ [Val.int q] = h := by
      have h1 := (List.getElem?_eq_some_iff.mp e)
      obtain ⟨h1, h2⟩ := h1
      rw [← h2]
      exact (List.take_append_getElem h1).trans (by rw [hl, List.take_length])
    rw [List.map_cons, forN, stringTerminalLoop]
    cases hc : W.src.getChar q with
    | none => exact ⟨.int q, by simp [h₁ c q h e hc, hh]⟩
    | some s =>
      by_cases es : c = s
      · subst es
        obtain ⟨w, hw⟩ := h₂ c q h e hc
        obtain ⟨v, hv⟩ := string_loop h₁ h₂ h₃ l (q + 1) (h.set L (.int (q + 1))) (by simpa using hl) (by simp [← hl])
        exact ⟨v, by simp only [hw, hv, if_true, List.take_set_of_le (Nat.le_refl L)]⟩
      · exact ⟨.int q, by simp [h₃ c s q h e hc es, es, hh]⟩

theorem string_loop_fail (s : Source) (p : Nat) : ∀ (l : List UInt8) (q : Nat), (stringTerminalLoop s p q l).1 = false →
    (stringTerminalLoop s p q l).2 = p
  | [], _, h => by simp [stringTerminalLoop] at h
  | c :: l, q, h => by
    unfold stringTerminalLoop at h ⊢
    cases hc : s.getChar q with
    | none => rfl
    | some x =>
      simp only [hc] at h
      by_cases e : c = x
      · simp only [e, if_true] at h ⊢; exact string_loop_fail s p l _ h
      · simp only [e, if_false]

theorem string_kernel_run (W : World R U) (n p : Nat) (l : List UInt8) (h : Heap) : ∃ v,
    run W.Q (n + 2) (.fn none n!"_string_terminal_kernel_ascii_opt") [encSource W.src, .int p, .bytes l] h =
      .ok (.tuple [.bool (stringTerminalKernel W.src p l).1, .int (stringTerminalKernel W.src p l).2]) (h ++ [v]) := by
  rw [run]
  simp only [W.core.f__string_terminal_kernel_ascii_opt, Ast._string_terminal_kernel_ascii_opt]
  mini [elements]
  generalize hs : (fun (v : Val) (h_1 : Heap) => _ : Val → Heap → Res Val) = step
  obtain ⟨v, hv⟩ := string_loop (step := step) (W := W) (p := p) (L := h.length)
    (fun c q h' e hc => by rw [← hs]; mini [load_loc e, get_char_call, hc, encChar])
    (fun c q h' e hc => by
      have h1 := getChar_lt hc
      have h2 := len_lt W.src
      have h3 : q + 1 < 4294967296 := by omega
      rw [← hs]
      refine ⟨.unit, ?_⟩
      mini [load_loc e, get_char_call, hc, encChar, binop, valEq, atomEq, decide_true, h3, store_loc e])
    (fun c s q h' e hc hn => by
      have e' : ¬ c.toNat = s.toNat := fun h => hn (UInt8.toNat_inj.mp h)
      rw [← hs]
      mini [load_loc e, get_char_call, hc, encChar, binop, valEq, atomEq, decide_false, e'])
    l p (h ++ [.int p]) (by simp) (by simp)
  rw [hv]
  unfold stringTerminalKernel
  cases hb : (stringTerminalLoop W.src p p l).1
  · exact ⟨v, by simp [Res.bind_ret, result_ret]⟩
  · refine ⟨.int (stringTerminalLoop W.src p p l).2, ?_⟩
    simp only [if_true, List.take_left']
    have e : (h ++ [Val.int (stringTerminalLoop W.src p p l).2])[h.length]? = some (.int (stringTerminalLoop W.src p p l).2) := by simp
    mini [List.take_left, load_loc e]
end
end PP.Mini
