import Verif.Lemmas.Mini.Words

/-! # Reading the lines of generated functions with the reader of the executed fragment -/
namespace PP.Mini
open PP.Gen
open PP.Gen.Text (Tok toks lineToks lineLet clo LineOk bodyToks variantToks)

theorem nm_let : nameOf (utf8Of "let") = n!"let" := by decide +kernel
theorem nm_rules : nameOf (utf8Of "Rules") = n!"Rules" := by decide +kernel
theorem nm_move : nameOf (utf8Of "move") = n!"move" := by decide +kernel
theorem nm_parent : nameOf (utf8Of "parent") = n!"parent" := by decide +kernel
theorem nm_source : nameOf (utf8Of "source") = n!"source" := by decide +kernel
theorem nm_position : nameOf (utf8Of "position") = n!"position" := by decide +kernel
theorem nm_vec : nameOf (utf8Of "to_vec") = n!"to_vec" := by decide +kernel

/-- The tokens of a right-hand side. -/
def rhsT : Text.Rhs → List T
  | .call f args => .id (nameOf f) :: .p 40 :: argsT 41 args
  | .closure f args => .id n!"move" :: .p 124 :: .id n!"parent" :: .p 58 :: .id (nameOf (utf8Of "Key")) :: .p 44 :: .id n!"source" :: .p 58 :: .p 38 ::
      .id (nameOf (utf8Of "Source")) :: .p 44 :: .id n!"position" :: .p 58 :: .id (nameOf (utf8Of "u32")) :: .p 124 :: .id (nameOf f) :: .p 40 :: argsT 41 args
  | .variants vs => .p 91 :: (argsT 93 (vs.map .variant) ++ [.p 46, .id n!"to_vec", .p 40, .p 41])

/-- The tokens of a type annotation. -/
def tyT : Text.Rhs → List T
  | .variants _ => [.p 58, .id (nameOf (utf8Of "Vec")), .p 60, .id n!"Rules", .p 62]
  | _ => []

def RhsOk : Text.Rhs → Prop
  | .call f args | .closure f args => Word f ∧ ∀ a ∈ args, ArgOk a
  | .variants _ => True

theorem variants_T (vs : List Bytes) (c : UInt8) : ((variantToks vs).map T.of) ++ [T.p c.toNat] = argsT c.toNat (vs.map .variant) := by
  induction vs with
  | nil => rfl
  | cons v vs ih =>
    cases vs with
    | nil => simp [variantToks, Text.tk_rules, argsT, argT, T.of, nm_rules]
    | cons w ws => simp [variantToks, Text.tk_rules, argsT, argT, T.of, nm_rules] at ih ⊢; exact ih

theorem line_T {l : Line} (h : LineOk l) (hne : ∀ i, l ≠ .exec i) : (lineToks l).map T.of =
    .id n!"let" :: .id (nameOf (lineLet l).x) :: (tyT (lineLet l).rhs ++ .p 61 :: rhsT (lineLet l).rhs) := by
  cases l with
  | stringTerminal => exact h.elim
  | exec i => exact (hne i rfl).elim
  | involvedSet vs =>
    have := variants_T vs 93
    rw [show UInt8.toNat 93 = 93 from rfl] at this
    simp [lineToks, lineLet, tyT, rhsT, Text.tk_inv, Text.tk_vec, Text.tk_vec2, Text.tk_ty, Text.tk_open, T.of, nm_let, nm_rules, nm_vec, ← this]
  | inlined i f =>
    simp [lineToks, lineLet, tyT, rhsT, Text.tk_let, Text.tk_move, Text.tk_moved, Text.tk_inl, T.of, nm_let, nm_move, nm_parent, nm_source, nm_position,
      Text.allParams, argsT, argT]
  | _ =>
    simp [lineToks, lineLet, tyT, rhsT, Text.tk_let, Text.tk_str, Text.tk_range, Text.tk_eq, Text.tk_amp, Text.tk_amp2, Text.tk_hook, Text.tk_close,
      Text.tk_term, Text.tk_var, Text.tk_ctx, Text.tk_lr, T.of, nm_let, nm_rules, Text.allParams, argsT, argT, Text.decimal_spec]

theorem exec_T (i : Nat) : (lineToks (.exec i)).map T.of = .id (nameOf (clo i)) :: .p 40 :: argsT 41 [.var (utf8Of "parent"), .var (utf8Of "source"),
    .var (utf8Of "position")] := by
  simp [lineToks, Text.tk_exec, argsT, argT, T.of]

theorem args_len (c : Nat) : ∀ as : List Text.Arg, as.length ≤ (argsT c as).length
  | [] => by simp
  | [a] => by cases a <;> simp [argsT, argT]
  | a :: b :: as => by
    have := args_len c (b :: as)
    cases a <;> simp [argsT, argT] at this ⊢ <;> omega

variable {s : Self}

theorem variants_ok (vs : List Bytes) : ∀ a ∈ vs.map Text.Arg.variant, ArgOk a := by
  intro a ha
  obtain ⟨v, -, rfl⟩ := List.mem_map.mp ha
  exact trivial

theorem skip_stop {stops : List Nat} {c : Nat} {ts : List T} (h : c ∈ stops) : skipTo stops 0 (.p c :: ts) = some (.p c :: ts) := by
  rw [skipTo.eq_def]; simp [h]
theorem skip_id {stops : List Nat} {x : Name} {d : Nat} {ts : List T} : skipTo stops d (.id x :: ts) = skipTo stops d ts := by
  rw [skipTo.eq_def]
theorem skip_p {stops : List Nat} {c d : Nat} {ts : List T} (hc : c ≠ 45) : skipTo stops d (.p c :: ts) =
    if d = 0 ∧ c ∈ stops then some (.p c :: ts) else if c = n!"<" ∨ c = n!"(" ∨ c = n!"[" then skipTo stops (d + 1) ts
      else if c = n!">" ∨ c = n!")" ∨ c = n!"]" then skipTo stops (d - 1) ts else skipTo stops d ts := by
  rw [skipTo.eq_def]; simp [hc]

theorem ex_rhs {r : Text.Rhs} {n : Nat} {ts : List T} (h : RhsOk r) (hs : Stop ts) (hn : (rhsT r).length + 20 ≤ n) :
    readEx s true n (rhsT r ++ ts) = some (rhsEx false r, ts) := by
  cases r with
  | call f args =>
    have := args_len 41 args
    simp only [rhsT, List.length_cons] at hn
    exact ex_call h.1 h.2 hs (by omega)
  | closure f args =>
    have := args_len 41 args
    simp only [rhsT, List.length_cons] at hn
    obtain ⟨n, rfl⟩ : ∃ k, n = k + 14 := ⟨n - 14, by omega⟩
    have hb := ex_call (s := s) (st := true) (n := n + 10) h.1 h.2 hs (by omega)
    refine readEx_prim (n := n + 11) (e := rhsEx false (.closure f args)) ?_ (post_stop hs) hs (by simp [rhsT]) (by simp [rhsT]) (by simp [rhsT]) (by simp [rhsT])
    simp only [rhsT, List.cons_append, readPrim]
    have hp : ∀ ts, readCloParams (n + 10) [] (.id n!"parent" :: .p 58 :: .id (nameOf (utf8Of "Key")) :: .p 44 :: .id n!"source" :: .p 58 :: .p 38 ::
        .id (nameOf (utf8Of "Source")) :: .p 44 :: .id n!"position" :: .p 58 :: .id (nameOf (utf8Of "u32")) :: .p 124 :: ts) =
        some ([n!"parent", n!"source", n!"position"], ts) := by
      intro ts; simp [readCloParams, skip_p, skip_id]
    simp [expect, hp, hb, rhsEx, cloBody]
  | variants vs =>
    have := args_len 93 (vs.map .variant)
    simp only [rhsT, List.length_cons, List.length_append, List.length_nil] at hn
    obtain ⟨n, rfl⟩ : ∃ k, n = k + 14 := ⟨n - 14, by omega⟩
    have hb := args_read (s := s) (c := 93) (.inr rfl) (n := n + 10) (ts := .p 46 :: .id n!"to_vec" :: .p 40 :: .p 41 :: ts) (variants_ok vs) (by omega)
    refine readEx_prim (n := n + 11) (e := .array (exsOf ((vs.map .variant).map argEx)))
      (us := .p 46 :: .id n!"to_vec" :: .p 40 :: .p 41 :: ts) ?_ ?_ hs (by simp [rhsT]) (by simp [rhsT]) (by simp [rhsT]) (by simp [rhsT])
    · simp only [rhsT, List.cons_append, List.append_assoc, List.nil_append, readPrim, hb, Option.bind_eq_bind, Option.bind_some]
    · simp only [readPost, readArgs, expect, if_true, Option.bind_eq_bind, Option.bind_some, post_stop hs, rhsEx, List.map_map]
      rfl

/-- The tokens of a block. -/
def blkT : List Text.Let → Bytes → List T
  | [], tail => .id (nameOf tail) :: .p 40 :: argsT 41 [.var (utf8Of "parent"), .var (utf8Of "source"), .var (utf8Of "position")]
  | l :: ls, tail => .id n!"let" :: .id (nameOf l.x) :: (tyT l.rhs ++ .p 61 :: (rhsT l.rhs ++ .p 59 :: blkT ls tail))

theorem word_parent : Word (utf8Of "parent") := ⟨by decide +kernel, by decide +kernel⟩
theorem word_source : Word (utf8Of "source") := ⟨by decide +kernel, by decide +kernel⟩
theorem word_position : Word (utf8Of "position") := ⟨by decide +kernel, by decide +kernel⟩

theorem skip_ty (r : Text.Rhs) (ts : List T) : skipTo [61, 59] 0 (tyT r ++ .p 61 :: ts) = some (.p 61 :: ts) := by
  cases r <;> simp [tyT, skip_p, skip_id]

theorem pat_ty {a : Name} (ha : Ord a) (r : Text.Rhs) (ts : List T) : readPat (.id a :: (tyT r ++ .p 61 :: ts)) = some (.var a, tyT r ++ .p 61 :: ts) := by
  cases r <;> simp [tyT, readPat, ha.k_none, ha.k_wild, ha.k_some]

theorem blk_read {tail : Bytes} (ht : Word tail) : ∀ {ls : List Text.Let} {n : Nat} {ts : List T}, (∀ l ∈ ls, Word l.x ∧ RhsOk l.rhs) →
    (blkT ls tail).length + 30 ≤ n → readBlk s n (blkT ls tail ++ .p 125 :: ts) = some (blkOf false ls tail, ts)
  | [], n, ts, _, hn => by
    obtain ⟨n, rfl⟩ : ∃ k, n = k + 20 := ⟨n - 20, by omega⟩
    have hs : Stop (.p 125 :: ts) := ⟨125, ts, rfl, by simp⟩
    have ha : ∀ a ∈ [Text.Arg.var (utf8Of "parent"), .var (utf8Of "source"), .var (utf8Of "position")], ArgOk a := by
      simp only [List.forall_mem_cons, ArgOk]
      exact ⟨word_parent, word_source, word_position, by simp⟩
    have he := ex_call (s := s) (st := true) (n := n + 18) ht ha hs (by simp)
    have hp : readPrim s true (n + 18) (.id (nameOf tail) :: .p 40 :: (argsT 41 [.var (utf8Of "parent"), .var (utf8Of "source"), .var (utf8Of "position")] ++
      .p 125 :: ts)) = some _ := prim_word ht.ordinary ⟨40, _, rfl, .inl rfl⟩
    simp only [blkT, List.cons_append, readBlk, expect, T.id.injEq, ht.ordinary.k_let, if_false, readStmt, hp, blockLike, Bool.false_eq_true, he,
      Option.bind_eq_bind, Option.bind_some, blkOf]
  | l :: ls, n, ts, h, hn => by
    obtain ⟨n, rfl⟩ : ∃ k, n = k + 1 := ⟨n - 1, by omega⟩
    have hs : ∀ us, Stop (.p 59 :: us) := fun us => ⟨59, us, rfl, by simp⟩
    simp only [blkT, List.length_cons, List.length_append] at hn
    have he := ex_rhs (s := s) (n := n) (h l (by simp)).2 (hs (blkT ls tail ++ .p 125 :: ts)) (by omega)
    have ih := blk_read ht (ls := ls) (n := n) (ts := ts) (fun l hl => h l (by simp [hl])) (by omega)
    have ho := (h l (by simp)).1.ordinary
    simp only [blkT, List.cons_append, List.append_assoc, readBlk, expect, T.id.injEq, ho.k_mut, if_false, if_true, pat_ty ho,
      Option.bind_eq_bind, Option.bind_some, skip_ty, he, ih, blkOf]

/-- The lines of a function, as a block. -/
theorem body_T {ls : List Line} {i : Nat} (h : ∀ l ∈ ls, LineOk l) (h' : ∀ l ∈ ls, ∀ i, l ≠ .exec i) :
    (bodyToks ls i).map T.of = blkT (ls.map lineLet) (clo i) := by
  unfold bodyToks
  induction ls with
  | nil => simpa [blkT] using exec_T i
  | cons l ls ih =>
    have := line_T (h l (by simp)) (h' l (by simp))
    have ih := ih (fun l hl => h l (by simp [hl])) (fun l hl => h' l (by simp [hl]))
    simp only [List.map_append] at ih
    simp only [List.map_cons, List.flatten_cons, List.map_append, this, List.append_assoc, ih, blkT, T.of]
    simp [T.of]

end PP.Mini
