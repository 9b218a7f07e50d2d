import Verif.Props.Values
import Verif.Proofs.Written
/-
C59: every reported value comes from one stretch of the text.
-/
namespace Pycep

theorem esyn_false_ne_nil {e w n} (h : ESyn false e w n) : w ≠ [] := by
  cases h <;> simp
  case object h => cases h; simp
  case call h => cases h <;> simp

theorem esyn_ne_nil {b e w n} (h : ESyn b e w n) : w ≠ [] := by
  obtain ⟨w', n', hi, h'⟩ := h.inner
  rintro rfl
  exact esyn_false_ne_nil h' (List.infix_nil.mp hi)

theorem Node.Syn.ne_nil {n : Node} {w} (h : n.Syn w) : w ≠ [] := by
  have loop : ∀ {l w n}, LoopSyn l w n → w ≠ [] := by
    intro l w n h
    cases h <;> simp
  cases n with
  | expr e => obtain ⟨b, n, h⟩ := h; exact esyn_ne_nil h
  | loop l => obtain ⟨n, h⟩ := h; exact loop h
  | head h' => obtain ⟨n, h⟩ := h; cases h <;> simp
  | config c =>
    obtain ⟨n, h⟩ := h
    cases h with
    | obj h => cases h; simp
    | loop h => exact loop h
    | cond => simp
  | type d =>
    have h : TypeSyn d w := h
    cases h with
    | mk h1 h2 => cases h1 <;> simp
  | deco d =>
    have h : DecoSyn d w := h
    cases h <;> simp

/-- the stretch of text in which a piece is written -/
theorem WrittenIn.slice {n : Node} {w} (h : WrittenIn n w) {t : List Char} (ht : Tiling 1 t w) :
    ∃ a s b w', SliceOf t a s b w' ∧ n.Syn w' := by
  obtain ⟨w', ⟨w1, w2, rfl⟩, h⟩ := h
  have hne := h.ne_nil
  obtain ⟨u, hu⟩ : ∃ u, w'.head? = some u := by
    cases w' with
    | nil => exact absurd rfl hne
    | cons u _ => exact ⟨u, rfl⟩
  obtain ⟨v, hv⟩ : ∃ v, w'.getLast? = some v := ⟨_, List.getLast?_eq_some_getLast hne⟩
  obtain ⟨a, s, b, hs, _⟩ := slice_lines ht (l := (u.line, v.endLine)) ⟨u, v, hu, hv, rfl⟩
  exact ⟨a, s, b, w', hs, h⟩

/-- **C59.** Every value in the result stands for a piece of the program that is written in one stretch
of the text: the stretch, cut into its tokens, is a way to write that piece, and the value is what
represents it. -/
theorem C59_provenance {P : Parser} {text path v} (h : P.parse text path = .ok v) :
    ∃ t p, chosenText text path = .ok t ∧ Spells t p ∧
      (∀ {s n π m}, p.At s n π m → ∃ a x b w y, SliceOf t.toList a x b w ∧ m.Syn w ∧
        m.val P.addLineNumbers = .ok y ∧ v.at? (.key s :: .key n :: π) = some y) ∧
      (∀ {m}, p.Has m → ∃ a x b w y, SliceOf t.toList a x b w ∧ m.Syn w ∧ m.val P.addLineNumbers = .ok y) := by
  obtain ⟨t, p, h1, h2, h3⟩ := parse_ok h
  obtain ⟨⟨w, hw, hs⟩, _⟩ := id h2
  replace hw := hw.tiling
  refine ⟨t, p, h1, h2, fun {s n π m} ha => ?_, fun {m} hm => ?_⟩
  · obtain ⟨y, hy, hat⟩ := at_val h3 ha
    obtain ⟨a, x, b, w', hsl, hsyn⟩ := (ha.written hs).slice hw
    exact ⟨a, x, b, w', y, hsl, hsyn, hy, hat⟩
  · obtain ⟨y, hy⟩ := has_val hm h3
    obtain ⟨a, x, b, w', hsl, hsyn⟩ := (hm.written hs).slice hw
    exact ⟨a, x, b, w', y, hsl, hsyn, hy⟩

/-- A stretch with a line break and a comment in it: the sum in the second declaration, on lines 2 and 3. -/
example : SliceOf "var x = 1\nvar y = a + /* one */\n 10".toList "var x = 1\nvar y = ".toList "a + /* one */\n 10".toList []
      [⟨T.STRING, ['a'], 2, 2⟩, ⟨T.PLUS, ['+'], 2, 2⟩, ⟨T._NEWLINE, ['\n'], 2, 3⟩, ⟨T.INT, ['1', '0'], 3, 3⟩] ∧
    (Node.expr (.bin .add (.ident ⟨['a'], 'a', [], rfl, by decide, by decide⟩) (.int ⟨['1', '0'], by decide, by decide⟩))).Syn
      [⟨T.STRING, ['a'], 2, 2⟩, ⟨T.PLUS, ['+'], 2, 2⟩, ⟨T._NEWLINE, ['\n'], 2, 3⟩, ⟨T.INT, ['1', '0'], 3, 3⟩] := by
  refine ⟨⟨rfl, ?_, ⟨_, rfl, _, rfl⟩, ⟨_, rfl, "a + /* one */\n ".toList, rfl⟩⟩, true, tEND, ?_⟩
  · exact .tok (t := T.STRING) (x := ['a']) ⟨'a', [], rfl, by decide, by decide⟩ (by decide)
      (.skip (x := [' ']) (.ws (by decide) (by decide))
      (.tok (t := T.PLUS) (x := ['+']) ⟨_, _, rfl, rfl, by decide⟩ (by decide)
      (.skip (x := [' ']) (.ws (by decide) (by decide))
      (.skip (x := "/* one */".toList) (.c " one ".toList)
      (.tok (t := T._NEWLINE) (x := ['\n']) .lf (by decide)
      (.skip (x := [' ']) (.ws (by decide) (by decide))
      (.tok (t := T.INT) (x := ['1', '0']) ⟨by decide, by decide⟩ (by decide) .nil)))))))
  · have nb : NoBang T.PLUS := by unfold NoBang; decide +kernel
    have nb2 : NoBang tEND := by unfold NoBang; decide +kernel
    have ni : NoInfix tEND := by unfold NoInfix; decide +kernel
    exact .plain (.bin (op := .add) (s := "+") (w1 := [⟨T.STRING, ['a'], 2, 2⟩]) rfl
      (.plain (.ident (w := []) (.inl rfl) ⟨rfl, rfl⟩) nb) ⟨by decide +kernel, rfl⟩
      (.plain (.int (w := [⟨T._NEWLINE, ['\n'], 2, 3⟩]) (.inr ⟨_, rfl, rfl⟩) ⟨rfl, rfl⟩) nb2) ni) nb2

/-- and the text is accepted -/
example : Parser.parse ⟨false⟩ (some "var x = 1\nvar y = a + /* one */\n 10") .none =
    .ok (.dict [("globals", .dict [("scope", .dict [("value", .str "resourceGroup")])]),
      ("variables", .dict [("x", .dict [("decorators", .list []), ("value", .int 1)]),
        ("y", .dict [("decorators", .list []), ("value", .dict [("operator", .dict [("type", .str "add"),
          ("operands", .dict [("operand_1", .elem "a"), ("operand_2", .int 10)])])])])])]) :=
  eq_of_outIs (by decide +kernel)

end Pycep
