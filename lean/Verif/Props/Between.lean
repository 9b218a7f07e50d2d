import Verif.Props.Tail
import Verif.Props.Repeat
/-
C93: comments between declarations.
-/
namespace Pycep

theorem writes_between {t1 s t2 : String} {p1 p2 : Program} (w1 : Writes t1 p1) (w2 : Writes t2 p2)
    (e1 : EndsLine t1.toList) (hs : Idle s.toList) (bs : NoBreak s.toList) (es : EndsLine s.toList)
    (b2 : NoBreak t2.toList) :
    Writes (t1 ++ s ++ t2) (p1 ++ p2.down (countNL t1.toList + countNL s.toList)) := by
  have := (w1.more e1 hs bs).append w2 (endsLine_both e1 es) b2
  rwa [String.toList_append, countNL_append] at this

/-- **C93, with line numbers.** Of comments and empty lines between two parts of a document only the number of
lines matters: parsing gives the same outcome, line numbers included, whatever the comments say. -/
theorem C93_lines (P : Parser) {x q x' q'} {t1 t2 s s' : String} {p1 p2 : Program} (w1 : Writes t1 p1)
    (w2 : Writes t2 p2) (c1 : p1.clear = true) (c2 : p2.clear = true) (e1 : EndsLine t1.toList)
    (b2 : NoBreak t2.toList) (hs : Idle s.toList) (bs : NoBreak s.toList) (es : EndsLine s.toList)
    (hs' : Idle s'.toList) (bs' : NoBreak s'.toList) (es' : EndsLine s'.toList)
    (hk : s.toList.count '\n' = s'.toList.count '\n') {n1 n2 m m' : Nat} (o1 : Occ t1.toList n1)
    (o2 : Occ t2.toList n2) (os : Occ s.toList m) (os' : Occ s'.toList m') (h1 : n1 % 2 = 0) (h2 : n2 % 2 = 0)
    (hm : m % 2 = 0) (hm' : m' % 2 = 0) (h : chosenText x q = .ok (t1 ++ s ++ t2))
    (h' : chosenText x' q' = .ok (t1 ++ s' ++ t2)) :
    P.parse x' q' = P.parse x q := by
  have v1 : isValid t1 = true := by rw [isValid_iff o1, h1]; rfl
  have v2 : isValid t2 = true := by rw [isValid_iff o2, h2]; rfl
  have vs : isValid s = true := by rw [isValid_iff os, hm]; rfl
  have vs' : isValid s' = true := by rw [isValid_iff os', hm']; rfl
  have hc : ∀ k, Program.clear (p1 ++ p2.down k) = true := fun k =>
    Program.clear_append _ _ c1 (by rw [Program.down_clear, c2])
  rw [parse_writes P h (by
      rw [isValid_append (endsLine_both e1 es) (by rw [isValid_append e1 v1, vs]), v2])
      (writes_between w1 w2 e1 hs bs es b2) (hc _),
    parse_writes P h' (by
      rw [isValid_append (endsLine_both e1 es') (by rw [isValid_append e1 v1, vs']), v2])
      (writes_between w1 w2 e1 hs' bs' es' b2) (hc _),
    show countNL s'.toList = countNL s.toList from hk.symm]

/-- **C93, without line numbers.** Comments and empty lines between two parts of a document can be left out. -/
theorem C93_between {x q x' q'} {t1 t2 s : String} {p1 p2 : Program} (w1 : Writes t1 p1)
    (w2 : Writes t2 p2) (c1 : p1.clear = true) (c2 : p2.clear = true) (e1 : EndsLine t1.toList)
    (b2 : NoBreak t2.toList) (hs : Idle s.toList) (bs : NoBreak s.toList) (es : EndsLine s.toList)
    {n1 n2 m : Nat} (o1 : Occ t1.toList n1)
    (o2 : Occ t2.toList n2) (os : Occ s.toList m) (h1 : n1 % 2 = 0) (h2 : n2 % 2 = 0)
    (hm : m % 2 = 0) (h : chosenText x q = .ok (t1 ++ s ++ t2)) (h' : chosenText x' q' = .ok (t1 ++ t2)) :
    (Parser.mk false).parse x q = (Parser.mk false).parse x' q' := by
  have v1 : isValid t1 = true := by rw [isValid_iff o1, h1]; rfl
  have v2 : isValid t2 = true := by rw [isValid_iff o2, h2]; rfl
  have vs : isValid s = true := by rw [isValid_iff os, hm]; rfl
  have hc : ∀ k, Program.clear (p1 ++ p2.down k) = true := fun k =>
    Program.clear_append _ _ c1 (by rw [Program.down_clear, c2])
  rw [parse_writes _ h (by
      rw [isValid_append (endsLine_both e1 es) (by rw [isValid_append e1 v1, vs]), v2])
      (writes_between w1 w2 e1 hs bs es b2) (hc _),
    parse_writes _ h' (by rw [isValid_append e1 v1, v2]) (w1.append w2 e1 b2) (hc _),
    ← Program.bare_val, ← Program.bare_val (_ ++ p2.down (countNL t1.toList))]
  have happ : ∀ a b : Program, Program.bare (a ++ b) = Program.bare a ++ Program.bare b := fun a b => by
    simp [Program.bare]
  simp only [happ, Program.down_bare]

theorem idle_comment {c : List Char} (hc : '\n' ∉ c) : Idle ('/' :: '/' :: c ++ ['\n']) := by
  have := Idle.line (x := '/' :: '/' :: c ++ ['\n']) (s := [])
    (.inr ⟨c, ['\n'], rfl, fun d hd e => hc (e ▸ hd), .lf⟩) ⟨by decide, by decide⟩ .nil
  rwa [List.append_nil] at this

/-- **C93, commenting out.** A line that is commented out with `//` counts as not written, whatever it
says, as long as its triple quotes are even in number (they are counted inside of comments, too, see C02). -/
theorem C93_commented {x q x' q'} {t1 t2 c : String} {p1 p2 : Program} (w1 : Writes t1 p1)
    (w2 : Writes t2 p2) (c1 : p1.clear = true) (c2 : p2.clear = true) (e1 : EndsLine t1.toList)
    (b2 : NoBreak t2.toList) (hc : '\n' ∉ c.toList) {n1 n2 m : Nat} (o1 : Occ t1.toList n1)
    (o2 : Occ t2.toList n2) (oc : Occ ("//" ++ c ++ "\n").toList m) (h1 : n1 % 2 = 0) (h2 : n2 % 2 = 0)
    (hm : m % 2 = 0) (h : chosenText x q = .ok (t1 ++ ("//" ++ c ++ "\n") ++ t2))
    (h' : chosenText x' q' = .ok (t1 ++ t2)) :
    (Parser.mk false).parse x q = (Parser.mk false).parse x' q' := by
  have e : ("//" ++ c ++ "\n").toList = '/' :: '/' :: c.toList ++ ['\n'] := by simp
  refine C93_between w1 w2 c1 c2 e1 b2 (s := "//" ++ c ++ "\n") (e ▸ idle_comment hc) ?_ ?_ o1 o2 oc h1 h2 hm h h'
  · rw [e]
    constructor
    · rintro ⟨y, hy⟩
      have := congrArg List.head? hy
      simp at this
    · rintro ⟨y, hy⟩
      have := congrArg List.head? hy
      simp at this
  · rw [e]
    exact .inr (by rw [List.getLast?_append]; rfl)

/-! ### Examples -/

/-- a declaration commented out between two others -/
example : (Parser.mk false).parse (some "var x=1\n//var y=[\nvar x=1\n") .none =
    (Parser.mk false).parse (some "var x=1\nvar x=1\n") .none := by
  obtain ⟨p, h, c, _⟩ := exVar_writes
  have o1 : Occ "var x=1\n".toList 0 := occ_no_quote (by decide +kernel)
  refine C93_commented (t1 := "var x=1\n") (t2 := "var x=1\n") (c := "var y=[") h h c c (.inr (by decide +kernel))
    ⟨by decide +kernel, by decide +kernel⟩ (by decide +kernel) o1 o1 (occ_no_quote (by decide +kernel)) rfl rfl rfl ?_ ?_
  · rw [show "var x=1\n" ++ ("//" ++ "var y=[" ++ "\n") ++ "var x=1\n" = "var x=1\n//var y=[\nvar x=1\n" by decide +kernel]
    rfl
  · rw [show "var x=1\n" ++ "var x=1\n" = "var x=1\nvar x=1\n" by decide +kernel]; rfl

/-- with line numbers: another comment of the same number of lines makes no difference -/
example : (Parser.mk true).parse (some "var x=1\n//a\nvar x=1\n") .none =
    (Parser.mk true).parse (some "var x=1\n//param x int\nvar x=1\n") .none := by
  obtain ⟨p, h, c, _⟩ := exVar_writes
  have o1 : Occ "var x=1\n".toList 0 := occ_no_quote (by decide +kernel)
  have i1 : Idle "//a\n".toList := by
    have := idle_comment (c := "a".toList) (by decide +kernel); exact this
  have i2 : Idle "//param x int\n".toList := by
    have := idle_comment (c := "param x int".toList) (by decide +kernel); exact this
  refine C93_lines _ (t1 := "var x=1\n") (t2 := "var x=1\n") (s := "//param x int\n") (s' := "//a\n") h h c c
    (.inr (by decide +kernel)) ⟨by decide +kernel, by decide +kernel⟩ i2 ⟨by decide +kernel, by decide +kernel⟩
    (.inr (by decide +kernel)) i1 ⟨by decide +kernel, by decide +kernel⟩ (.inr (by decide +kernel))
    (by decide +kernel) o1 o1 (occ_no_quote (by decide +kernel)) (occ_no_quote (by decide +kernel)) rfl rfl rfl rfl ?_ ?_
  · rw [show "var x=1\n" ++ "//param x int\n" ++ "var x=1\n" = "var x=1\n//param x int\nvar x=1\n" by decide +kernel]; rfl
  · rw [show "var x=1\n" ++ "//a\n" ++ "var x=1\n" = "var x=1\n//a\nvar x=1\n" by decide +kernel]; rfl

/-- The triple quotes of a comment do count: with an odd number of them the document is rejected. -/
example : (Parser.mk false).parse (some "var x=1\n//var y='''\nvar x=1\n") .none =
    .error (.valueError "Text is invalid") := eq_of_errIs (by decide +kernel)

end Pycep
