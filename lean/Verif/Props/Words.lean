import Verif.Props.Values
import Verif.Proofs.Written
import Verif.Proofs.Words
/-
C60: words and numbers are read as far as they go.
-/
namespace Pycep

theorem WordTiling.mem {l t w} (h : WordTiling l t w) : ∀ u ∈ w, ∃ a b, t = a ++ u.text ++ b ∧ Whole u.type b := by
  induction h with
  | nil => simp
  | @skip l x s w _ _ ih =>
    intro u hu
    obtain ⟨a, b, e, h⟩ := ih u hu
    exact ⟨x ++ a, b, by rw [e]; simp, h⟩
  | @tok l t x s w _ _ hw _ ih =>
    intro u hu
    rcases List.mem_cons.mp hu with rfl | hu
    · exact ⟨[], s, rfl, hw⟩
    · obtain ⟨a, b, e, h⟩ := ih u hu
      exact ⟨x ++ a, b, by rw [e]; simp, h⟩

/-- `parse_ok` with whole words -/
theorem parse_words {P : Parser} {text path v} (h : P.parse text path = .ok v) :
    ∃ t p w, chosenText text path = .ok t ∧ WordTiling 1 t.toList w ∧ ProgSyn p w tEND ∧ Spells t p ∧
      Program.val P.addLineNumbers p = .ok v := by
  rw [parse_eq] at h
  rcases createTree'_cases text path with ⟨e, h1, h2⟩ | ⟨t, m, h1, h2, h3, h4⟩ | ⟨t, h1, h2, _, h3⟩ |
    ⟨t, tree, _, h1, h2, h3, _, _, h5⟩
  · rw [h2] at h; cases h
  · rw [h3] at h; cases h
  · rw [h3] at h; cases h
  · obtain ⟨p, w, h6, h7, h8, h9⟩ := larkParse_words h3
    refine ⟨t, p, w, h1, h6, h7, h9, ?_⟩
    rw [h5] at h
    simp only [Except.bind, bicepToJson_program h8] at h
    unfold liftV at h
    split at h <;> simp_all

theorem items_type {u : Tok} (h : Kw "items" u) : u.type = T.ITEMS :=
  kw_type h "items" T.ITEMS rfl (by decide +kernel)

/-- **C60.** The tokens of an accepted text are whole: an identifier is never followed by a character
that could belong to it, nor a number by a digit.  In particular the `items` of a loop over the members
of an object is followed by something else than an opening bracket. -/
theorem C60_words {P : Parser} {text path v} (h : P.parse text path = .ok v) :
    ∃ t p, chosenText text path = .ok t ∧ Spells t p ∧ (∃ w, WordTiling 1 t.toList w ∧ ProgSyn p w tEND) ∧
      Program.val P.addLineNumbers p = .ok v ∧
      (∀ {x}, p.Has (.expr (.ident x)) → ∃ a b, t.toList = a ++ x.1 ++ b ∧ Stops isWord b) ∧
      (∀ {d}, p.Has (.expr (.int d)) → ∃ a b, t.toList = a ++ d.1 ++ b ∧ Stops isAsciiDigit b) ∧
      (∀ {x e}, p.Has (.head (.obj x e)) → ∃ a b, t.toList = a ++ "items".toList ++ b ∧ Stops isWord b ∧
        b.head? ≠ some '(') := by
  obtain ⟨t, p, w, h1, h2, h3, h0, h4⟩ := parse_words h
  refine ⟨t, p, h1, h0, ⟨w, h2, h3⟩, h4, fun {x} hx => ?_, fun {d} hd => ?_, fun {x e} hx => ?_⟩
  · obtain ⟨w', hi, b, n, hs⟩ := hx.written h3
    obtain ⟨w2, n2, hi2, hs2⟩ := hs.inner
    cases hs2 with
    | @ident _ _ u _ _ hu =>
      obtain ⟨a, b, e, hw⟩ := h2.mem u (hi.subset (hi2.subset (by simp)))
      obtain ⟨h5, h6⟩ := hu
      rw [h5] at hw
      exact ⟨a, b, by rw [e, h6], hw.1 (by decide)⟩
  · obtain ⟨w', hi, b, n, hs⟩ := hd.written h3
    obtain ⟨w2, n2, hi2, hs2⟩ := hs.inner
    cases hs2 with
    | @int _ _ u _ _ hu =>
      obtain ⟨a, b, e, hw⟩ := h2.mem u (hi.subset (hi2.subset (by simp)))
      obtain ⟨h5, h6⟩ := hu
      rw [h5] at hw
      exact ⟨a, b, by rw [e, h6], hw.2.1 rfl⟩
  · obtain ⟨w', hi, n, hs⟩ := hx.written h3
    cases hs with
    | @obj _ _ u i k q w r _ _ _ hk =>
      obtain ⟨a, b, e, hw⟩ := h2.mem k (hi.subset (by simp))
      rw [items_type hk] at hw
      exact ⟨a, b, by rw [e, hk.2], hw.1 (by decide), hw.2.2.1 (by decide)⟩

/-- In a text that writes `items(` throughout, no loop is a loop over the members of an object: what is
reported is a loop over the result of a call of a function named `items`. -/
theorem C60_items {P : Parser} {text path v} (h : P.parse text path = .ok v) {t} (ht : chosenText text path = .ok t)
    (hi : ∀ a b, t.toList = a ++ "items".toList ++ b → b.head? = some '(') :
    ∃ p, Spells t p ∧ Program.val P.addLineNumbers p = .ok v ∧ ∀ {x e}, ¬ p.Has (.head (.obj x e)) := by
  obtain ⟨t', p, h1, h0, -, h4, _, _, h5⟩ := C60_words h
  rw [ht] at h1
  cases h1
  refine ⟨p, h0, h4, fun {x e} hx => ?_⟩
  obtain ⟨a, b, e, _, hb⟩ := h5 hx
  exact hb (hi a b e)

/-- With a blank the loop runs over the members of `o`, ... -/
example : Parser.parse ⟨false⟩ (some "var v = [for x in items (o): x]") .none =
    .ok (.dict [("globals", .dict [("scope", .dict [("value", .str "resourceGroup")])]),
      ("variables", .dict [("v", .dict [("decorators", .list []), ("value", .dict [
        ("loop_type", .dict [("type", .str "object"), ("detail", .dict [("item_name", .str "x"),
          ("object_name", .str "o")])]),
        ("condition", .none), ("config", .elem "x")])])])]) :=
  eq_of_outIs (by decide +kernel)

/-- ... without it over the result of a function. -/
example : Parser.parse ⟨false⟩ (some "var v = [for x in items(o): x]") .none =
    .ok (.dict [("globals", .dict [("scope", .dict [("value", .str "resourceGroup")])]),
      ("variables", .dict [("v", .dict [("decorators", .list []), ("value", .dict [
        ("loop_type", .dict [("type", .str "array"), ("detail", .dict [("item_name", .str "x"),
          ("array_name", .dict [("function", .dict [("type", .str "items"),
            ("parameters", .dict [("arg_1", .elem "o")])])])])]),
        ("condition", .none), ("config", .elem "x")])])])]) :=
  eq_of_outIs (by decide +kernel)

/-- The second text meets the hypothesis of `C60_items`. -/
example : ∀ a b, "var v = [for x in items(o): x]".toList = a ++ "items".toList ++ b → b.head? = some '(' := by
  intro a b h
  have key : ∀ s : List Char, s = "var v = [for x in items(o): x]".toList → ∀ n ≤ s.length,
      "items".toList <+: s.drop n → (s.drop (n + 5)).head? = some '(' := by
    rintro s rfl; decide +kernel
  have := key _ rfl a.length (by rw [h]; simp) (by rw [h, List.append_assoc, List.drop_left]; exact ⟨b, rfl⟩)
  rw [h, show a.length + 5 = (a ++ "items".toList).length by simp, List.drop_left] at this
  exact this

/-- The keyword of a declaration can be glued to the word behind it, and a declaration to the number in
front of it: where no identifier is expected, the words need no separation. -/
example : Parser.parse ⟨false⟩ (some "paramx int=1var for=2") .none =
    .ok (.dict [("globals", .dict [("scope", .dict [("value", .str "resourceGroup")])]),
      ("parameters", .dict [("x", .dict [("decorators", .list []), ("type", .str "int"), ("default", .int 1)])]),
      ("variables", .dict [("for", .dict [("decorators", .list []), ("value", .int 2)])])]) :=
  eq_of_outIs (by decide +kernel)

end Pycep
