import Verif.Model.Gen.Constructor
import Verif.Lemmas.Unfold
import Verif.Lemmas.Gen.Invert

/-! # Fuelled functions that converge to one value; nodes that unfold to written trees -/
namespace PP.Gen

/-- With enough fuel the result is `v` (a value or a panic); with too little fuel it is `v` or out of fuel. -/
def Conv {α : Type} (f : Nat → Out α) (v : Out α) : Prop :=
  v ≠ .oof ∧ (∀ n, f n = .oof ∨ f n = v) ∧ ∃ N, ∀ n, N ≤ n → f n = v

section
variable {α β σ : Type}

theorem Conv.const {v : Out α} (h : v ≠ .oof) : Conv (fun _ => v) v := ⟨h, fun _ => Or.inr rfl, 0, fun _ _ => rfl⟩
theorem Conv.ok (a : α) : Conv (fun _ => Out.ok a) (.ok a) := .const (by simp)

theorem Conv.bind {f : Nat → Out α} {g : Nat → α → Out β} {x : Out α} {y : α → Out β} (hf : Conv f x)
    (hg : ∀ a, x = .ok a → Conv (fun n => g n a) (y a)) : Conv (fun n => f n >>= g n) (x >>= y) := by
  obtain ⟨h0, h1, N, h2⟩ := hf
  cases x with
  | oof => exact absurd rfl h0
  | panic p =>
    refine ⟨by simp, fun n => ?_, N, fun n hn => by simp [h2 n hn]⟩
    rcases h1 n with h | h <;> simp [h]
  | ok a =>
    obtain ⟨g0, g1, M, g2⟩ := hg a rfl
    refine ⟨by simpa using g0, fun n => ?_, max N M, fun n hn => ?_⟩
    · rcases h1 n with h | h
      · simp [h]
      · simpa [h] using g1 n
    · simp [h2 n (by omega), g2 n (by omega)]

theorem Conv.bind_ok {f : Nat → Out α} {g : Nat → α → Out β} {a : α} {v : Out β} (hf : Conv f (.ok a))
    (hg : Conv (fun n => g n a) v) : Conv (fun n => f n >>= g n) v := by
  have := Conv.bind (y := fun _ => v) hf (g := g) (fun b hb => by injection hb with hb; subst hb; exact hg)
  simpa using this

theorem Conv.bind_panic {f : Nat → Out α} {g : Nat → α → Out β} {p : Panic} (hf : Conv f (.panic p)) :
    Conv (fun n => f n >>= g n) (.panic p) := by
  have := Conv.bind (y := fun _ => (.panic p : Out β)) hf (g := g) (fun b hb => by cases hb)
  simpa using this

theorem Conv.succ {f : Nat → Out α} {v : Out α} (h0 : f 0 = .oof) (h : Conv (fun n => f (n + 1)) v) : Conv f v := by
  obtain ⟨h1, h2, N, h3⟩ := h
  refine ⟨h1, fun n => ?_, N + 1, fun n hn => ?_⟩
  · cases n with
    | zero => exact Or.inl h0
    | succ n => exact h2 n
  · cases n with
    | zero => omega
    | succ n => exact h3 n (by omega)

theorem Conv.congr {f g : Nat → Out α} {v : Out α} (h : Conv f v) (e : ∀ n, g n = f n) : Conv g v := by
  have : g = f := funext e
  exact this ▸ h
theorem Conv.val {f : Nat → Out α} {v w : Out α} (h : Conv f v) (e : v = w) : Conv f w := e ▸ h

/-- Whatever the fuel, a definite result is the value. -/
theorem Conv.eq {f : Nat → Out α} {v : Out α} (h : Conv f v) {n : Nat} (hn : f n ≠ .oof) : f n = v := by
  rcases h.2.1 n with h | h
  · exact absurd h hn
  · exact h

theorem Conv.unique {f : Nat → Out α} {v w : Out α} (h : Conv f v) (h' : Conv f w) : v = w := by
  obtain ⟨_, _, N, h1⟩ := h
  obtain ⟨_, _, M, h2⟩ := h'
  rw [← h1 (max N M) (by omega), ← h2 (max N M) (by omega)]

theorem Conv.of_mono {f : Nat → Out α} {N : Nat} {v : Out α} (hmono : ∀ n m, n ≤ m → (f n).le (f m)) (hv : f N = v) (h : v ≠ .oof) :
    Conv f v := by
  refine ⟨h, fun n => ?_, N, fun n hn => ?_⟩
  · rcases Nat.le_total n N with hn | hn
    · rcases hmono n N hn with h1 | h1
      · exact Or.inl h1
      · exact Or.inr (h1.trans hv)
    · rcases hmono N n hn with h1 | h1
      · exact absurd (hv ▸ h1) h
      · exact Or.inr (h1 ▸ hv)
  · rcases hmono N n hn with h1 | h1
    · exact absurd (hv ▸ h1) h
    · exact h1 ▸ hv

end

/-- Node `i` of `t` unfolds to the tree `T`. -/
def At (t : Publisher Dsl) (i : Nat) (T : Tree Dsl) : Prop := UnfL t.nodes [i] [T]

section
variable {t : Publisher Dsl} {i : Nat} {ks : List Nat} {T : Tree Dsl} {Ts : List (Tree Dsl)}

theorem At.inv {r : Dsl} {p q : Nat} {kids} (h : At t i (.node r (some (p, q)) kids)) :
    ∃ nd, t.getNode i = .ok nd ∧ nd.rule = r ∧ nd.result = true ∧ nd.start = p ∧ nd.stop = q ∧
      UnfL t.nodes nd.children kids := by
  unfold At at h
  generalize hk : [i] = ks at h
  generalize ht : [Tree.node r (some (p, q)) kids] = ts at h
  cases h with
  | nil => cases hk
  | @cons k nd cs ks' ts' h1 h2 h3 =>
    injection hk with hk _
    subst hk
    injection ht with ht _
    injection ht with e1 e2 e3
    subst e1 e3
    have : nd.result = true ∧ nd.start = p ∧ nd.stop = q := by
      unfold Node.spanOf at e2
      split at e2
      · next h => simp at e2; exact ⟨h, e2.1.symm, e2.2.symm⟩
      · cases e2
    exact ⟨nd, by simp [Publisher.getNode, h1], rfl, this.1, this.2.1, this.2.2, h2⟩

theorem UnfL.inv_cons (h : UnfL t.nodes ks (T :: Ts)) : ∃ k ks', ks = k :: ks' ∧ At t k T ∧ UnfL t.nodes ks' Ts := by
  generalize ht : T :: Ts = ts at h
  cases h with
  | nil => cases ht
  | cons h1 h2 h3 =>
    injection ht with e1 e2
    subst e1 e2
    exact ⟨_, _, rfl, .cons h1 h2 .nil, h3⟩
theorem UnfL.inv_nil (h : UnfL t.nodes ks []) : ks = [] := by
  generalize ht : ([] : List (Tree Dsl)) = ts at h
  cases h with
  | nil => rfl
  | cons => cases ht

end

/-! ### Slices of the source -/
section
variable {src : Source} {p q : Nat} {s : Bytes} {c : UInt8}

theorem boundary_of {b : Bytes} (h : b[p]? = some c) (hc : c.toNat / 64 ≠ 2) : Source.isCharBoundary b p = true := by
  unfold Source.isCharBoundary
  simp [h, hc]
theorem not_boundary_of {b : Bytes} (hp : 0 < p) (h : b[p]? = some c) (hc : c.toNat / 64 = 2) :
    Source.isCharBoundary b p = false := by
  unfold Source.isCharBoundary
  have : p < b.length := (List.getElem?_eq_some_iff.mp h).1
  simp [h, hc]; omega
theorem boundary_end {b : Bytes} : Source.isCharBoundary b b.length = true := by
  unfold Source.isCharBoundary; simp

theorem Cut.split {s1 s2 : Bytes} (h : Cut src p q (s1 ++ s2)) : Cut src p (p + s1.length) s1 ∧ Cut src (p + s1.length) q s2 := by
  obtain ⟨t, e, rfl, hl⟩ := h
  simp at hl
  refine ⟨⟨s2 ++ t, by simpa using e, rfl, by omega⟩, ⟨t, ?_, by simp; omega, by simp; omega⟩⟩
  rw [← List.drop_drop, e]; simp
theorem Cut.uncons (h : Cut src p q (c :: s)) : Cut src p (p + 1) [c] ∧ Cut src (p + 1) q s := Cut.split (s1 := [c]) h
theorem Cut.mid {s1 s2 s3 : Bytes} (h : Cut src p q (s1 ++ (s2 ++ s3))) :
    Cut src (p + s1.length) (p + s1.length + s2.length) s2 := h.split.2.split.1

theorem Cut.strSlice (h : Cut src p q s) (h1 : Source.isCharBoundary src.bytes p = true)
    (h2 : Source.isCharBoundary src.bytes q = true) : Source.strSlice src.bytes p q = .ok s := by
  obtain ⟨t, e, rfl, hl⟩ := h
  unfold Source.strSlice
  rw [if_pos ⟨by omega, hl, h1, h2⟩, e]
  simp
theorem Cut.byteSlice (h : Cut src p q s) : Source.byteSlice src.bytes p q = .ok s := by
  obtain ⟨t, e, rfl, hl⟩ := h
  unfold Source.byteSlice
  rw [if_pos ⟨by omega, hl⟩, e]
  simp

/-- A piece between an opening byte and a byte that starts a character. -/
theorem Cut.inner {a d : UInt8} (h : Cut src p q (a :: (s ++ [d]))) (hs : Hd (s ++ [d]) fun c => c.toNat / 64 ≠ 2)
    (hd : d.toNat / 64 ≠ 2) : Source.strSlice src.bytes (p + 1) (q - 1) = .ok s := by
  obtain ⟨_, h2⟩ := h.uncons
  have hq : q = p + 1 + s.length + 1 := by have := h2.end; simp at this; omega
  obtain ⟨h3, h4⟩ := h2.split
  have : q - 1 = p + 1 + s.length := by omega
  rw [this]
  refine h3.strSlice ?_ (boundary_of h4.get hd)
  cases s with
  | nil => exact boundary_of (by simpa using h4.get) hd
  | cons c s => exact boundary_of h3.get (hs c rfl)
end

end PP.Gen
