import Verif.Props.Join
import Verif.Props.Stray
import Verif.Proofs.Documents
/-
C90: saying the same thing twice.
-/
namespace Pycep

theorem eraseDups_again (x y z : List String) : (x ++ y ++ y ++ z).eraseDups = (x ++ y ++ z).eraseDups := by
  have h : (y ++ z).removeAll (x ++ y) = z.removeAll (x ++ y) := by
    unfold List.removeAll
    rw [List.filter_append, List.filter_eq_nil_iff.mpr, List.nil_append]
    intro a ha
    simp [ha]
  rw [List.append_assoc (x ++ y), List.eraseDups_append, h, ← List.eraseDups_append]

theorem lastWins_again (x y z : List (String × Val)) : lastWins (x ++ y ++ y ++ z) = lastWins (x ++ y ++ z) := by
  unfold lastWins
  simp only [List.map_append, eraseDups_again]
  refine List.map_congr_left fun k _ => ?_
  simp only [List.reverse_append, List.lookup_append]
  cases z.reverse.lookup k <;> cases y.reverse.lookup k <;> rfl

/-- Entries repeated directly behind themselves change nothing. -/
theorem collect_again (x y z : List Entry) : collect (x ++ y ++ y ++ z) = collect (x ++ y ++ z) := by
  rw [collect_eq_iff]
  refine ⟨by simp only [List.map_append, eraseDups_again], fun s => ?_⟩
  simp only [secItems_append, lastWins_again]

theorem val_again (ln : Bool) (p q r : Program) : Program.val ln (p ++ q ++ q ++ r) = Program.val ln (p ++ q ++ r) := by
  simp only [Program.val, Program.outs_append]
  cases Program.outs ln p with
  | error e => rfl
  | ok a =>
    cases Program.outs ln q with
    | error e => rfl
    | ok b =>
      cases Program.outs ln r with
      | error e => rfl
      | ok c =>
        simp only [bind, Except.bind]
        congr 2
        unfold entries
        simp only [List.flatMap_append]
        generalize a.flatMap Out.own = a1
        generalize a.flatMap Out.imports = a2
        generalize a.flatMap Out.children = a3
        generalize b.flatMap Out.own = b1
        generalize b.flatMap Out.imports = b2
        generalize b.flatMap Out.children = b3
        generalize c.flatMap Out.own = c1
        generalize c.flatMap Out.imports = c2
        generalize c.flatMap Out.children = c3
        have h1 := collect_again (defaultScope ln :: a1) b1 (c1 ++ (a2 ++ b2 ++ b2 ++ c2) ++ (a3 ++ b3 ++ b3 ++ c3))
        have h2 := collect_again (defaultScope ln :: (a1 ++ b1 ++ c1 ++ a2)) b2 (c2 ++ (a3 ++ b3 ++ b3 ++ c3))
        have h3 := collect_again (defaultScope ln :: (a1 ++ b1 ++ c1 ++ (a2 ++ b2 ++ c2) ++ a3)) b3 c3
        simp only [List.append_assoc, List.cons_append] at h1 h2 h3 ⊢
        rw [h1, h2, h3]

theorem endsLine_both {t1 t2 : String} (h1 : EndsLine t1.toList) (h2 : EndsLine t2.toList) :
    EndsLine (t1 ++ t2).toList := by
  rw [String.toList_append]
  rcases h2 with h2 | h2
  · rw [h2, List.append_nil]; exact h1
  · exact .inr (by rw [List.getLast?_append, h2]; rfl)

/-- **C90.** A part of a text that is repeated directly behind itself changes nothing, be it accepted or not,
apart from line numbers.  The three parts are clear ways to write programs with balanced multi-line quotes
(the first and the last one may be empty, so that a whole document may be repeated), the first two end a
line, and the last two do not begin with an empty line. -/
theorem C90_repeated {x q x' q'} {t1 t2 t3 : String} {p1 p2 p3 : Program} (w1 : Writes t1 p1) (w2 : Writes t2 p2)
    (w3 : Writes t3 p3) (c1 : p1.clear = true) (c2 : p2.clear = true) (c3 : p3.clear = true)
    (e1 : EndsLine t1.toList) (e2 : EndsLine t2.toList) (b2 : NoBreak t2.toList) (b3 : NoBreak t3.toList)
    {n1 n2 n3 : Nat} (o1 : Occ t1.toList n1) (o2 : Occ t2.toList n2) (o3 : Occ t3.toList n3)
    (m1 : n1 % 2 = 0) (m2 : n2 % 2 = 0) (m3 : n3 % 2 = 0)
    (h : chosenText x q = .ok (t1 ++ t2 ++ t3)) (h' : chosenText x' q' = .ok (t1 ++ t2 ++ t2 ++ t3)) :
    (Parser.mk false).parse x' q' = (Parser.mk false).parse x q := by
  have v1 : isValid t1 = true := by rw [isValid_iff o1, m1]; rfl
  have v2 : isValid t2 = true := by rw [isValid_iff o2, m2]; rfl
  have v3 : isValid t3 = true := by rw [isValid_iff o3, m3]; rfl
  have e12 := endsLine_both e1 e2
  have e122 := endsLine_both e12 e2
  have v12 : isValid (t1 ++ t2) = true := by rw [isValid_append e1 v1, v2]
  have v122 : isValid (t1 ++ t2 ++ t2) = true := by rw [isValid_append e12 v12, v2]
  have w12 := w1.append w2 e1 b2
  have c12 : Program.clear (p1 ++ p2.down (countNL t1.toList)) = true :=
    Program.clear_append _ _ c1 (by rw [Program.down_clear, c2])
  have w122 := w12.append w2 e12 b2
  rw [parse_writes _ h (by rw [isValid_append e12 v12, v3]) (w12.append w3 e12 b3)
      (Program.clear_append _ _ c12 (by rw [Program.down_clear, c3])),
    parse_writes _ h' (by rw [isValid_append e122 v122, v3]) (w122.append w3 e122 b3)
      (Program.clear_append _ _ (Program.clear_append _ _ c12 (by rw [Program.down_clear, c2]))
        (by rw [Program.down_clear, c3])),
    ← Program.bare_val, ← Program.bare_val (_ ++ _ ++ Program.down _ p3)]
  have happ : ∀ a b : Program, Program.bare (a ++ b) = Program.bare a ++ Program.bare b := fun a b => by
    simp [Program.bare]
  simp only [happ, Program.down_bare, val_again]

/-! ### Examples -/

/-- a whole document, repeated -/
example : (Parser.mk false).parse (some "var x=1\nvar x=1\n") .none = (Parser.mk false).parse (some "var x=1\n") .none := by
  obtain ⟨p, h, c, _⟩ := exVar_writes
  have he : Writes "" [] := ⟨[], .nil, .nil⟩
  have nb : NoBreak "".toList := ⟨by decide +kernel, by decide +kernel⟩
  have o0 : Occ "".toList 0 := occ_no_quote (by decide +kernel)
  have o1 : Occ "var x=1\n".toList 0 := occ_no_quote (by decide +kernel)
  refine C90_repeated (t1 := "") (t2 := "var x=1\n") (t3 := "") he h he rfl c rfl (.inl (by decide +kernel))
    (.inr (by decide +kernel)) ⟨by decide +kernel, by decide +kernel⟩ nb o0 o1 o0 rfl rfl rfl ?_ ?_
  · rw [show "" ++ "var x=1\n" ++ "" = "var x=1\n" by decide +kernel]; rfl
  · rw [show "" ++ "var x=1\n" ++ "var x=1\n" ++ "" = "var x=1\nvar x=1\n" by decide +kernel]; rfl

/-- The repetition has to follow directly: here it makes a difference. -/
example : (Parser.mk false).parse (some "var x=1\nvar x=2\n") .none =
      .ok (.dict [("globals", .dict [("scope", .dict [("value", .str "resourceGroup")])]),
        ("variables", .dict [("x", .dict [("decorators", .list []), ("value", .int 2)])])]) ∧
    (Parser.mk false).parse (some "var x=1\nvar x=2\nvar x=1\n") .none =
      .ok (.dict [("globals", .dict [("scope", .dict [("value", .str "resourceGroup")])]),
        ("variables", .dict [("x", .dict [("decorators", .list []), ("value", .int 1)])])]) :=
  ⟨eq_of_outIs (by decide +kernel), eq_of_outIs (by decide +kernel)⟩

end Pycep
