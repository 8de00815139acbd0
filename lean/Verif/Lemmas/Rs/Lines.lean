import Verif.Lemmas.Rs.Leaves
import Verif.Model.Gen.Generate

/-! # `count_lines` of generator/src/lib.rs -/
namespace PP.Rs
open PP.Gen

variable (ord : List Val → List Val)

theorem count_loop {F : Val → Env → Res} {E : Nat → Env} (hF : ∀ (c : UInt8) (k : Nat), k + 1 < 4294967296 → ∃ v, F (.num false c.toNat) (E k) = .ok v (E (if c = 10 then k + 1 else k))) :
    ∀ (l : Bytes) (k : Nat), k + l.length < 4294967296 → forN F (l.map fun c => .num false c.toNat) (E k) = .ok unit (E (k + l.count 10))
  | [], k, _ => by simp [forN]
  | c :: l, k, h => by
    rw [List.length_cons] at h
    obtain ⟨v, hv⟩ := hF c k (by omega)
    rw [List.map_cons, forN, hv]
    simp only
    rw [count_loop hF l _ (by split <;> omega)]
    simp only [List.count_cons, beq_iff_eq]
    congr 2
    split <;> omega

theorem call_count_lines {src : Bytes} {q : Nat} (hq : q ≤ src.length) (hs : src.length + 1 < 4294967296) {m : Nat} (hm : 1 ≤ m) :
    callN (World.gen ord) m Ast.count_lines [.str src, .num true q] = .ok (.num true (1 + (src.take q).count 10)) [.str src, .num true q] := by
  rw [callN_succ rfl rfl (by omega)]
  have hb : sliceVal (.bytes src) (.num false 0) (.num false q) = .ok (.bytes (src.take q)) .none := by
    simp [sliceVal, hq]
  rs [Ast.count_lines, hb, items, as_bytes_lib, cast_usize, show cast (.num false 1) n!"u32" = .some (.num true 1) from rfl]
  generalize hL : forN _ _ _ = L
  have K : L = .ok unit [(n!"new_line_count", .num true (1 + (src.take q).count 10)), (n!"source", .str src), (n!"start_position", .num true q)] := by
    rw [← hL]
    refine count_loop (E := fun k => [(n!"new_line_count", .num true k), (n!"source", .str src), (n!"start_position", .num true q)]) (fun c k hk => ?_) (src.take q) 1 (by rw [List.length_take]; omega)
    have h1 : binop .eq (.num false c.toNat) (.num false 10) = .ok (.bool (decide (c = 10))) .none := by
      have : (c.toNat == 10) = decide (c = 10) := by
        rw [Bool.eq_iff_iff]
        simp [← UInt8.toNat_inj]
      simp [binop, valEq, this]
    have h2 : binop .add (.num true k) (.num false 1) = .ok (.num true (k + 1)) .none := by
      simp [binop, numLimit, hk]
    refine ⟨unit, ?_⟩
    by_cases hc : c = 10
    · rw [decide_eq_true hc] at h1
      rw [if_pos hc]
      rs [inScope, addTo, h1, h2]
    · rw [decide_eq_false hc] at h1
      rw [if_neg hc]
      rs [inScope, h1, unit]
  subst K
  rs []

end PP.Rs
