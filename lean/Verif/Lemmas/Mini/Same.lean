import Verif.Lemmas.SameLink
import Verif.Spec.Mini.Crate

/-! # A crate that computes what a parser computes, computes what the same parser computes -/
namespace PP.Mini
open PP.Gen
variable {R S U : Type} {ρ : R → S → Prop} {vn : R → Name} {vn' : S → Name}

theorem map_of_nodes {α β γ : Type} {f : α → γ} {g : β → γ} : ∀ {xs : List α} {ys : List β}, xs.length = ys.length →
    (∀ (k : Nat) a b, xs[k]? = some a → ys[k]? = some b → f a = g b) → xs.map f = ys.map g
  | [], [], _, _ => rfl
  | [], _ :: _, h, _ => nomatch h
  | _ :: _, [], h, _ => nomatch h
  | x :: xs, y :: ys, h, hk => by
    rw [List.map_cons, List.map_cons, hk 0 x y rfl rfl,
      map_of_nodes (Nat.succ.inj h) fun k a b ha hb => hk (k + 1) a b (by simpa using ha) (by simpa using hb)]

theorem encPub_same (hv : ∀ r s, ρ r s → vn r = vn' s) {t : Publisher R} {t' : Publisher S} (h : t.Same ρ t') : encPub vn t = encPub vn' t' := by
  unfold encPub
  rw [map_of_nodes (f := encNode vn) (g := encNode vn') h.length fun k a b ha hb => ?_]
  have := h.node k a b ha hb
  simp only [encNode, encRule, this.index, hv _ _ this.rule, this.start, this.stop, this.result, this.children]

theorem encResult_same (hv : ∀ r s, ρ r s → vn r = vn' s) {x : Bool × Nat × Publisher R} {y : Bool × Nat × Publisher S} (h : SameResult ρ x y) :
    encResult vn x = encResult vn' y := by
  rw [encResult, encResult, h.1, h.2.1, encPub_same hv h.2.2]

theorem computes_same [DecidableEq R] [DecidableEq S] {Q : Prog} {P : Parser R U} {P' : Parser S U} (hρ : Pairing ρ) (hP : P.Same ρ P')
    (hv : ∀ r s, ρ r s → vn r = vn' s) (h : Computes Q P vn) : Computes Q P' vn' := by
  have rel := fun src n => same_parse hρ hP src n
  refine ⟨fun input n v h' hr => ?_, fun input m y hy => ?_, fun input => ?_, h.total⟩
  · obtain ⟨m, x, hx, hxv⟩ := h.sound input n v h' hr
    have := rel ⟨input⟩ m
    rw [hx] at this
    cases hy : parse P' ⟨input⟩ m <;> rw [hy] at this
    · exact this.elim
    · exact this.elim
    · exact ⟨m, _, hy, hxv.trans (encResult_same hv this)⟩
  · have := rel ⟨input⟩ m
    rw [hy] at this
    cases hx : parse P ⟨input⟩ m <;> rw [hx] at this
    · exact this.elim
    · exact this.elim
    · rw [← encResult_same hv this]
      exact h.complete input m _ hx
  · rw [h.panics]
    constructor
    · rintro ⟨m, p, hp⟩
      have := rel ⟨input⟩ m
      rw [hp] at this
      cases hy : parse P' ⟨input⟩ m <;> rw [hy] at this
      · exact this.elim
      · exact ⟨m, _, hy⟩
      · exact this.elim
    · rintro ⟨m, p, hp⟩
      have := rel ⟨input⟩ m
      rw [hp] at this
      cases hy : parse P ⟨input⟩ m <;> rw [hy] at this
      · exact this.elim
      · exact ⟨m, _, hy⟩
      · exact this.elim

end PP.Mini
