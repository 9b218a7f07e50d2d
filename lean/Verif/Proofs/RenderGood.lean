import Verif.Proofs.RenderLayout
/-
The tokens of the canonical text of a program can be written one after the other.
-/
namespace Pycep

/-- the lexemes can be written behind every token that is not a dot -/
def G (w : List Lexeme) : Prop := ∀ p, p ≠ T.DOT → Good p w

theorem G.nil : G [] := fun _ h => h

theorem Good.append : ∀ {p a b}, Good p a → G b → Good p (a ++ b)
  | _, [], _, ha, hb => hb _ ha
  | _, u :: a, b, ⟨h1, h2, h3⟩, hb => by
    refine ⟨h1, fun h => ?_, Good.append h3 hb⟩
    have := h2 h
    cases a with
    | nil => simp at this
    | cons v a => simpa using this

theorem G.append {a b} (ha : G a) (hb : G b) : G (a ++ b) := fun p hp => (ha p hp).append hb

/-- keywords and punctuation marks, except the dot -/
def marks : List Nat := (keywordIds ++ (opIds1 ++ opIds2)).filter (· != T.DOT)

theorem clean_kw {p k} (h : k ∈ keywordIds ++ (opIds1 ++ opIds2)) : Clean p (kw k) := by
  rcases List.mem_append.mp h with h | h
  · exact .keyword h
  · rcases List.mem_append.mp h with h | h
    · exact .op1 h
    · exact .op2 h

theorem good_kw {p k w} (h : k ∈ marks) (hw : G w) : Good p (kw k :: w) := by
  simp only [marks, List.mem_filter, bne_iff_ne, ne_eq] at h
  have := fixed_mild k h.1
  exact ⟨clean_kw h.1, fun e => (this.2.2.2.1 e).elim, hw _ h.2⟩

theorem good_kw' {p k w} (h : k ∈ marks) (hw : Good k w) : Good p (kw k :: w) := by
  simp only [marks, List.mem_filter, bne_iff_ne, ne_eq] at h
  have := fixed_mild k h.1
  exact ⟨clean_kw h.1, fun e => (this.2.2.2.1 e).elim, hw⟩

theorem good_dot {p w} (hw : Good T.DOT w) : Good p (kw T.DOT :: w) :=
  ⟨clean_kw (by decide), fun e => (by cases e), hw⟩

theorem free_of_other {p ks} {x : Ident} (h : keywordIds.all (fun k => ks.contains k || !reserved p k) = true)
    (hx : x.Other ks) : x.Free p := by
  intro k hk he
  have := List.all_eq_true.mp h k hk
  simp only [Bool.or_eq_true, Bool.not_eq_true', List.contains_iff_mem] at this
  rcases this with h | h
  · exact (hx k h he).elim
  · exact h

theorem free_all {p} {x : Ident} (h : keywordIds.all (fun k => !reserved p k) = true) : x.Free p :=
  free_of_other (ks := []) (by simpa using h) (by intro k hk; cases hk)

theorem free_of_plain {p} {x : Ident} (h : x.plain = true) : x.Free p := by
  intro k hk he
  have := List.all_eq_true.mp h k hk
  simp [he] at this

theorem plain_iff {x : Ident} : x.plain = true ↔ x.Other keywordIds := by
  simp [Ident.plain, Ident.Other]

theorem good_id {p w} {x : Ident} (hx : x.Free p) (hw : G w) : Good p (idTok x :: w) :=
  ⟨.ident hx, fun e => (by cases e), hw T.STRING (by decide)⟩

/-- a name behind a keyword -/
theorem good_named {p k w} {x : Ident} (h : k ∈ marks) (hr : keywordIds.all (fun j => !reserved k j) = true)
    (hw : G w) : Good p (kw k :: idTok x :: w) := good_kw' h (good_id (free_all hr) hw)

theorem good_str {p w b} (hb : StrOK false b) (hw : G w) : Good p (strTok b :: w) :=
  ⟨.quoted hb (by simp), fun e => (by cases e), hw T.QUOTED_INTERPOLATION (by decide)⟩

theorem good_nl {p w} (hw : G w) : Good p (nl :: w) :=
  ⟨.newline, fun e => (by cases e), hw T._CPP_COMMENT_NL (by decide)⟩

theorem good_nl' {p w} (hw : Good T._CPP_COMMENT_NL w) : Good p (nl :: w) :=
  ⟨.newline, fun e => (by cases e), hw⟩

theorem G.of {w} (h : ∀ p, Good p w) : G w := fun p _ => h p

/-- in brackets -/
theorem good_paren {p w} (hw : Good T.LPAR w) : Good p (kw T.LPAR :: (w ++ [kw T.RPAR])) :=
  good_kw' (by decide) (hw.append (.of fun _ => good_kw (by decide) .nil))

mutual
theorem qbody_quiet : ∀ {b x}, QBody b x → '\'' ∉ x → QBody false x
  | _, _, .nil, _ => .nil
  | _, _, .chr h1 h2 h3 h4 hx, h => .chr h1 h2 h3 h4 (qbody_quiet hx fun hm => h (by simp [hm]))
  | _, _, .dollar h1 hx, h => .dollar h1 (qbody_quiet hx fun hm => h (by simp [hm]))
  | _, _, .back h1 hx, h => .back h1 (qbody_quiet hx fun hm => h (by
      simp only [List.mem_cons] at hm ⊢; exact .inr hm))
  | _, _, .esc hx, h => (h (by simp)).elim
  | _, _, .hole hh hx, h => .hole (qhole_quiet hh fun hm => h (by simp [hm]))
      (qbody_quiet hx fun hm => h (by simp [hm]))
theorem qhole_quiet : ∀ {b x}, QHole b x → '\'' ∉ x → QHole false x
  | _, _, .nil, _ => .nil
  | _, _, .chr h1 h2 h3 h4 hx, h => .chr h1 h2 h3 h4 (qhole_quiet hx fun hm => h (by simp [hm]))
  | _, _, .str _ _, h => (h (by simp)).elim
end

/-- expressions that are neither strings with quotes in them nor keywords used as identifiers -/
def Expr.quiet : Expr → Bool
  | .str b => !b.contains '\''
  | .ident x => x.plain
  | _ => true

theorem Expr.quiet_of_simple {e : Expr} (h : e.simple = true) : e.quiet = true := by
  cases e <;> simp_all [Expr.simple, Expr.quiet]

theorem Expr.simple_of_simpleR {e : Expr} (h : e.simpleR = true) : e.simple = true := by
  cases e <;> simp_all [Expr.simple, Expr.simpleR]

variable {β : Styles}

theorem good_bang {b : Style} : G (if b.bang then [kw T.BANG] else []) := by
  split
  · exact .of fun _ => good_kw (by decide) .nil
  · exact .nil

theorem good_wrap {π : Spot} {b : Style} {e : Expr} (h : ∀ p, (p ≠ T.DOT ∨ e.simpleR = true) →
    (p = T.LPAR ∨ e.quiet = true) → Good p (e.toks β π)) : G (wrap e.simple b (e.toks β π)) := by
  intro p hp
  unfold wrap
  refine Good.append ?_ good_bang
  split
  · rename_i hs
    simp only [Bool.and_eq_true] at hs
    exact h p (.inl hp) (.inr (Expr.quiet_of_simple hs.1))
  · exact good_paren (h _ (.inl (by decide)) (.inl rfl))

theorem good_wrapR {π : Spot} {b : Style} {e : Expr} (h : ∀ p, (p ≠ T.DOT ∨ e.simpleR = true) →
    (p = T.LPAR ∨ e.quiet = true) → Good p (e.toks β π)) (p : Nat) : Good p (wrap e.simpleR b (e.toks β π)) := by
  unfold wrap
  refine Good.append ?_ good_bang
  split
  · rename_i hs
    simp only [Bool.and_eq_true] at hs
    exact h p (.inr hs.1) (.inr (Expr.quiet_of_simple (Expr.simple_of_simpleR hs.1)))
  · exact good_paren (h _ (.inl (by decide)) (.inl rfl))

theorem good_key {w} {k : Key} (hk : k.ok) (hw : G w) : Good T._CPP_COMMENT_NL (k.tok :: w) := by
  cases k with
  | resource => exact good_kw (by decide) hw
  | ident x => exact good_id (free_of_other (by decide +kernel) hk) hw
  | quoted s b => exact good_str hk.2 hw

theorem good_existing {b w} (hw : G w) : G (existingToks b ++ w) := by
  cases b
  · exact hw
  · exact .of fun _ => good_kw (by decide) hw

theorem op_mem (op : BinOp) (h : op ≠ .prop) : op.token ∈ marks := by
  cases op <;> first | exact absurd rfl h | decide

theorem closing_good (op : BinOp) : G op.closing := by
  cases op <;> first | exact .nil | exact .of fun _ => good_kw (by decide) .nil

mutual
theorem Expr.good {π : Spot} : (e : Expr) → e.ok → ∀ p, (p ≠ T.DOT ∨ e.simpleR = true) →
    (p = T.LPAR ∨ e.quiet = true) → Good p (e.toks β π)
  | .null, _, _, _, _ => good_kw (by decide) .nil
  | .tru, _, _, _, _ => good_kw (by decide) .nil
  | .fls, _, _, _, _ => good_kw (by decide) .nil
  | .int d, _, _, _, _ => ⟨.int, fun e => (by cases e), show T.INT ≠ _ by decide⟩
  | .ident x, h, p, _, hp => by
    rcases hp with rfl | hp
    · exact good_id (free_of_other (by decide +kernel) h) .nil
    · exact good_id (free_of_plain hp) .nil
  | .str b, h, p, _, hp => by
    rcases hp with rfl | hp
    · exact ⟨.quoted h (fun _ => by decide), fun e => (by cases e), show T.QUOTED_INTERPOLATION ≠ _ by decide⟩
    · refine good_str ⟨qbody_quiet h.1 (by simpa [Expr.quiet] using hp), h.2⟩ .nil
  | .multi b, h, _, _, _ => ⟨.multi h, fun e => (by cases e), show T.MULTI_LINE_STRING ≠ _ by decide⟩
  | .array es, h, _, _, _ => good_kw (by decide) ((Expr.goodL es h).append (.of fun _ => good_kw (by decide) .nil))
  | .object is, h, _, _, _ => good_kw (by decide) (.of fun _ => good_nl' ((Item.goodL is h).append
      (.of fun _ => good_kw (by decide) .nil)))
  | .call f es, h, p, hp, _ => by
    refine ⟨.function ?_, fun e => (by cases e), ?_⟩
    · rcases hp with hp | hp
      · exact hp
      · cases hp
    · exact ((Expr.goodL es h).append (.of fun _ => good_kw (by decide) .nil)) T.FUNCTION (by decide)
  | .bin op a b, h, p, hp, _ => by
    have hp : p ≠ T.DOT := hp.resolve_right (by simp [Expr.simpleR, Expr.simple])
    refine ((good_wrap (Expr.good a h.1)) p hp).append (.of fun q => ?_)
    have hb := fun q => (good_wrapR (β := β) (π := 1 :: π) (b := β (1 :: π)) (Expr.good b h.2) q).append (closing_good op)
    by_cases ho : op = .prop
    · subst ho; exact good_dot (hb _)
    · exact good_kw' (op_mem op ho) (hb _)
  | .not a, h, _, _, _ => good_kw (by decide) (good_wrap (Expr.good a h))
  | .minus a, h, _, _, _ => good_kw (by decide) (good_wrap (Expr.good a h))
  | .cond c t f, h, p, hp, _ => by
    have hp : p ≠ T.DOT := hp.resolve_right (by simp [Expr.simpleR, Expr.simple])
    exact ((good_wrap (Expr.good c h.1)) p hp).append (.of fun _ => good_kw (by decide)
      ((good_wrap (Expr.good t h.2.1)).append (.of fun _ => good_kw (by decide) (good_wrap (Expr.good f h.2.2)))))
  | .method a f args, h, p, hp, _ => by
    have hp : p ≠ T.DOT := hp.resolve_right (by simp [Expr.simpleR, Expr.simple])
    refine ((good_wrap (Expr.good a h.1)) p hp).append (.of fun _ => good_dot ?_)
    refine ⟨.method h.2.1, fun _ => rfl, good_kw (by decide) ?_⟩
    exact (Expr.goodA args h.2.2.2).append (.of fun _ => good_kw (by decide) .nil)
  | .lambda v e, h, p, hp, _ => by
    have hp : p ≠ T.DOT := hp.resolve_right (by simp [Expr.simpleR, Expr.simple])
    exact ((good_wrap (Expr.good v h.1)) p hp).append (.of fun _ => good_kw (by decide) (good_wrap (Expr.good e h.2)))
  | .lambdaN v1 v2 v3 vs e, h, p, hp, _ => by
    obtain ⟨h1, h2, h3, h4, h5⟩ := h
    exact good_kw (by decide) ((good_wrap (Expr.good v1 h1)).append (.of fun _ => good_kw (by decide)
      ((good_wrap (Expr.good v2 h2)).append ((G.append (.of fun _ => good_kw (by decide) (good_wrap (Expr.good v3 h3)))
        (Expr.goodT vs h4)).append (.of fun _ => good_kw (by decide) (.of fun _ => good_kw (by decide)
          (good_wrap (Expr.good e h5))))))))
theorem Expr.goodL {π : Spot} : (es : List Expr) → Expr.okL es → G (Expr.listToks β π es)
  | [], _ => .nil
  | e :: es, h => (good_wrap (Expr.good e h.1)).append (Expr.goodT es h.2)
theorem Expr.goodT {π : Spot} : (es : List Expr) → Expr.okL es → G (Expr.tailToks β π es)
  | [], _ => .nil
  | e :: es, h => G.append (.of fun _ => good_kw (by decide) (good_wrap (Expr.good e h.1))) (Expr.goodT es h.2)
theorem Expr.good1 {π : Spot} : (o : Option Expr) → Expr.ok1 o → G (Expr.optToks β π o)
  | .none, _ => .nil
  | some e, h => good_wrap (Expr.good e h)
theorem Expr.goodA {π : Spot} : (os : List (Option Expr)) → Expr.okO os → G (Expr.argToks β π os)
  | [], _ => .nil
  | o :: os, h => by
    refine G.append ?_ ((Expr.good1 o h.1).append (Expr.goodAT os h.2))
    split
    · exact .of fun _ => good_kw (by decide) .nil
    · exact .nil
theorem Expr.goodAT {π : Spot} : (os : List (Option Expr)) → Expr.okO os → G (Expr.argTailToks β π os)
  | [], _ => .nil
  | o :: os, h => by
    refine G.append ?_ ((Expr.good1 o h.1).append (Expr.goodAT os h.2))
    split
    · exact .of fun _ => good_kw (by decide) .nil
    · exact .nil
theorem Item.good {π : Spot} : (i : Item) → i.ok → Good T._CPP_COMMENT_NL (i.toks β π)
  | .pair k v, h => good_key h.1 (.of fun _ => good_kw (by decide) (good_wrap (Expr.good v h.2)))
  | .pairLoop k l, h => good_key h.1 (.of fun _ => good_kw (by decide) (Loop.good l h.2))
  | .child _ x b ex c, h => good_kw' (by decide) (good_id (free_all (by decide +kernel)) (.of fun _ =>
      good_str h.1 (good_existing (.of fun _ => good_kw (by decide) (Config.good c h.2)))))
theorem Item.goodL {π : Spot} : (is : List Item) → Item.okL is → Good T._CPP_COMMENT_NL (Item.lineToks β π is)
  | [], _ => show T._CPP_COMMENT_NL ≠ T.DOT by decide
  | i :: is, h => (Item.good i h.1).append (.of fun _ => good_nl' (Item.goodL is h.2))
theorem Loop.good {π : Spot} : (l : Loop) → l.ok → G (l.toks β π)
  | .mk hd c e, h => .of fun _ => good_kw (by decide) (.of fun _ => good_kw' (by decide)
      ((LoopHead.good hd h.1).append (.of fun _ => good_kw (by decide) ((Expr.good1 c h.2.1).append
        ((good_wrap (Expr.good e h.2.2)).append (.of fun _ => good_kw (by decide) .nil))))))
theorem LoopHead.good {π : Spot} : (l : LoopHead) → l.ok → Good T.FOR (l.toks β π)
  | .arr x e, h => good_id (free_all (by decide +kernel)) (.of fun _ => good_kw (by decide)
      (good_wrap (Expr.good e h)))
  | .arrIdx x i e, h => good_kw' (by decide) (good_id (free_of_other (by decide +kernel) h.1) (.of fun _ =>
      good_kw' (by decide) (good_id (free_of_other (by decide +kernel) h.2.1) (.of fun _ => good_kw (by decide)
        (.of fun _ => good_kw (by decide) (good_wrap (Expr.good e h.2.2)))))))
  | .obj x e, h => good_id (free_all (by decide +kernel)) (.of fun _ => good_kw (by decide) (.of fun _ =>
      good_kw (by decide) (.of fun _ => good_kw (by decide) ((good_wrap (Expr.good e h)).append
        (.of fun _ => good_kw (by decide) .nil)))))
theorem Config.good {π : Spot} : (c : Config) → c.ok → G (c.toks β π)
  | .obj is, h => .of fun _ => good_kw (by decide) (.of fun _ => good_nl' ((Item.goodL is h).append
      (.of fun _ => good_kw (by decide) .nil)))
  | .loop l, h => Loop.good l h
  | .cond c e, h => .of fun _ => good_kw (by decide) (.of fun _ => good_kw (by decide)
      ((good_wrap (Expr.good c h.1)).append (.of fun _ => good_kw (by decide) (good_wrap (Expr.good e h.2)))))
end

theorem Expr.goodO {π : Spot} {e : Expr} (h : e.ok) : G (e.opd β π) := good_wrap (Expr.good e h)

theorem good_suffix : ∀ n, G (suffixToks n)
  | 0 => .nil
  | n + 1 => (good_suffix n).append (.of fun _ => good_kw (by decide) (.of fun _ => good_kw (by decide) .nil))

mutual
theorem DataType.good : (d : DataType) → d.ok → G d.toks
  | .mk b n, h => (BaseType.good b h).append (good_suffix n)
theorem BaseType.good : (d : BaseType) → d.ok → G d.toks
  | .name x, h => .of fun _ => good_id (free_of_plain (plain_iff.mpr h)) .nil
  | .union d1 d2 ds, h => .of fun _ => good_kw (by decide) ((DataType.good d1 h.1).append
      ((G.append (.of fun _ => good_kw (by decide) (DataType.good d2 h.2.1)) (DataType.goodL ds h.2.2)).append
        (.of fun _ => good_kw (by decide) .nil)))
theorem DataType.goodL : (ds : List DataType) → DataType.okL ds → G (DataType.tailToks ds)
  | [], _ => .nil
  | d :: ds, h => G.append (.of fun _ => good_kw (by decide) (DataType.good d h.1)) (DataType.goodL ds h.2)
end

theorem good_flatMap {α : Type} {f : α → List Lexeme} : ∀ {l : List α}, (∀ a ∈ l, G (f a)) → G (l.flatMap f)
  | [], _ => .nil
  | a :: l, h => by
    rw [List.flatMap_cons]
    exact (h a (by simp)).append (good_flatMap fun b hb => h b (by simp [hb]))

theorem Deco.goodL {π : Spot} : ∀ {ds : List Deco}, Deco.okL ds → G (decoToks β π ds)
  | [], _ => .nil
  | d :: _, h => G.append (.of fun _ => good_kw (by decide) (.of fun _ =>
    ⟨.deco, fun e => (by cases e), good_kw (by decide) ((Expr.good1 _ (h d (by simp))).append
      (.of fun _ => good_kw (by decide) (.of fun _ => good_nl .nil)))⟩)) (Deco.goodL fun e he => h e (by simp [he]))

theorem good_as {o : Option Ident} : G (asToks o) := by
  cases o with
  | none => exact .nil
  | some x => exact .of fun _ => good_kw' (by decide) (good_id (free_all (by decide +kernel)) .nil)

theorem ImportItem.good {i : ImportItem} (h : i.ok) {p} (hp : p = T.LBRACE ∨ p = T.COMMA) : Good p i.toks := by
  obtain ⟨n, a⟩ := i
  cases n with
  | name x => rcases hp with rfl | rfl <;> exact good_id (free_of_other (by decide +kernel) h) good_as
  | star => exact ⟨.star, fun e => (by cases e), good_as T.__ANON_1 (by decide)⟩

theorem LoopOrExpr.good {π : Spot} {e : LoopOrExpr} (h : e.ok) : G (e.toks β π) := by
  cases e with
  | expr e => exact Expr.goodO h
  | loop l => exact Loop.good l h

theorem good_paramTail : ∀ {ps : List (Ident × DataType)}, (∀ p ∈ ps, p.1.Other (T.RESOURCE :: literals) ∧ p.2.ok) → G (paramTailToks ps)
  | [], _ => .nil
  | (x, d) :: ps, h => .of fun _ => good_kw' (by decide) (good_id (free_of_other (by decide +kernel) (h (x, d) (by simp)).1)
      ((DataType.good d (h (x, d) (by simp)).2).append (good_paramTail fun p hp => h p (by simp [hp]))))

theorem good_params {ps : List (Ident × DataType)} (h : ∀ p ∈ ps, p.1.Other (T.RESOURCE :: literals) ∧ p.2.ok) :
    Good T.LPAR (paramToks ps) := by
  match ps, h with
  | [], _ => exact show T.LPAR ≠ T.DOT by decide
  | (x, d) :: ps, h =>
    exact good_id (free_of_other (by decide +kernel) (h (x, d) (by simp)).1)
      ((DataType.good d (h (x, d) (by simp)).2).append (good_paramTail fun p hp => h p (by simp [hp])))

theorem good_alts {π : Spot} : ∀ {es : List Expr}, Expr.okL es → G (altToks β π es)
  | [], _ => .nil
  | _ :: _, h => .of fun _ => good_kw (by decide) ((Expr.goodO h.1).append (good_alts h.2))

theorem good_default {π : Spot} {o : Option Expr} (h : Expr.ok1 o) : G (defaultToks β π o) := by
  cases o with
  | none => exact .nil
  | some e => exact .of fun _ => good_kw (by decide) (Expr.goodO h)

theorem Decl.good {π : Spot} {d : Decl} (h : d.ok) : G (d.toks β π) := by
  cases d with
  | scope b => exact .of fun _ => good_kw (by decide) (.of fun _ => good_kw (by decide) (.of fun _ => good_str h .nil))
  | importNs b => exact .of fun _ => good_kw (by decide) (.of fun _ => good_str h .nil)
  | importFrom i is b =>
    refine .of fun _ => good_kw (by decide) (.of fun _ => good_kw' (by decide)
      ((ImportItem.good h.2.1 (.inl rfl)).append (G.append (good_flatMap fun j hj =>
        .of fun _ => good_kw' (by decide) (ImportItem.good (h.2.2 j hj) (.inr rfl))) ?_)))
    exact .of fun _ => good_kw (by decide) (.of fun _ => good_kw (by decide) (.of fun _ => good_str h.1 .nil))
  | extension x c al =>
    refine .of fun _ => good_named (by decide) (by decide +kernel) (G.append ?_ good_as)
    cases c with
    | none => exact .nil
    | some is => exact .of fun _ => good_kw (by decide) (Config.good (.obj is) h)
  | metadata x b => exact .of fun _ => good_named (by decide) (by decide +kernel) (.of fun _ =>
      good_kw (by decide) (.of fun _ => good_str h .nil))
  | param ds x t o => exact (Deco.goodL h.1).append (.of fun _ => good_named (by decide) (by decide +kernel)
      ((DataType.good t h.2.1).append (good_default h.2.2)))
  | var ds x t e =>
    refine (Deco.goodL h.1).append (.of fun _ => good_named (by decide) (by decide +kernel)
      (G.append ?_ (.of fun _ => good_kw (by decide) (LoopOrExpr.good h.2.2))))
    cases t with
    | none => exact .nil
    | some d => exact DataType.good d (h.2.1 d rfl)
  | output ds x t e => exact (Deco.goodL h.1).append (.of fun _ => good_named (by decide) (by decide +kernel)
      ((DataType.good t h.2.1).append (.of fun _ => good_kw (by decide) (LoopOrExpr.good h.2.2))))
  | resource ds x b ex c => exact (Deco.goodL h.1).append (.of fun _ => good_named (by decide) (by decide +kernel)
      (.of fun _ => good_str h.2.1 (good_existing (.of fun _ => good_kw (by decide) (Config.good c h.2.2)))))
  | module ds x b c => exact (Deco.goodL h.1).append (.of fun _ => good_named (by decide) (by decide +kernel)
      (.of fun _ => good_str h.2.1 (.of fun _ => good_kw (by decide) (Config.good c h.2.2))))
  | typ ds x e es => exact (Deco.goodL h.1).append (.of fun _ => good_named (by decide) (by decide +kernel)
      (.of fun _ => good_kw (by decide) ((Expr.goodO h.2.1).append (good_alts h.2.2))))
  | func ds x ps t e => exact (Deco.goodL h.1).append (.of fun _ => good_named (by decide) (by decide +kernel)
      (.of fun _ => good_kw' (by decide) ((good_params h.2.1).append (.of fun _ =>
        good_kw (by decide) ((DataType.good t h.2.2.1).append (.of fun _ => good_kw (by decide)
          (Expr.goodO h.2.2.2)))))))

theorem good_prog {π : Spot} : ∀ {p : Program}, p.ok → G (progToks β π p)
  | [], _ => .nil
  | d :: _, h => ((Decl.good (h d (by simp))).append (.of fun _ => good_nl .nil)).append
      (good_prog fun e he => h e (by simp [he]))

theorem Program.good {p : Program} (h : p.ok) : Good tEND (p.toks β) := good_prog h tEND (by decide)

end Pycep
