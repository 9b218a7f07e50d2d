import Verif.Spec.Words
/-
Where string literals, comments and line ends end: a cutting of a text into tokens in which every
token and everything skipped extends exactly as far as the language says.
-/
namespace Pycep

mutual
/-- The inside of a quoted string: a quote comes only behind a backslash or inside of `${...}`. -/
inductive ShutBody : List Char → Prop where
  | nil : ShutBody []
  | chr {c x} : c ≠ '\'' → ShutBody x → ShutBody (c :: x)
  | esc {x} : ShutBody x → ShutBody ('\\' :: '\'' :: x)
  | hole {h x} : ShutHole h → ShutBody x → ShutBody ('$' :: '{' :: h ++ '}' :: x)
/-- The inside of an interpolation: characters other than quotes and braces, quoted strings, and
whatever else can be a token or is skipped between tokens. -/
inductive ShutHole : List Char → Prop where
  | nil : ShutHole []
  | chr {c h} : c ≠ '\'' → c ≠ '{' → c ≠ '}' → ShutHole h → ShutHole (c :: h)
  | str {b h} : ShutBody b → ShutHole h → ShutHole ('\'' :: b ++ '\'' :: h)
  | tok {t x h} : t < tEND → t ≠ T.QUOTED_INTERPOLATION → TokText t x → ShutHole h → ShutHole (x ++ h)
  | skip {x h} : Trivia x → ShutHole h → ShutHole (x ++ h)
end

/-- `EndsWell t x s`: in front of the text `s`, the token of type `t` with text `x` ends where it should.
A quoted string has no quote in it that could end it, and no three quotes stand anywhere between its
first character and the end of that line; a multi-line string ends with the first three quotes behind
its opening ones; the line ends that form one token are all there are. -/
def EndsWell (t : Nat) (x s : List Char) : Prop :=
  (t = T.QUOTED_INTERPOLATION → (∃ b, x = '\'' :: b ++ ['\''] ∧ ShutBody b) ∧ NoTriple (x ++ s)) ∧
  (t = T.MULTI_LINE_STRING → ∃ b, x = '\'' :: '\'' :: '\'' :: b ++ ['\'', '\'', '\''] ∧
    ¬ ['\'', '\'', '\''] <:+: b ++ ['\'', '\'']) ∧
  (t = T._CPP_COMMENT_NL → NoBreak s)

/-- `Skipped x s`: what is skipped in front of the text `s`: all blanks there are, a `#` comment up to
the end of its line, a block comment up to the first `*/`. -/
inductive Skipped : List Char → List Char → Prop where
  | blanks {x s} : x ≠ [] → (∀ c ∈ x, c = ' ' ∨ c = '\t') → s.head? ≠ some ' ' → s.head? ≠ some '\t' →
      Skipped x s
  | hash {x s} : (∀ c ∈ x, c ≠ '\n') → (s = [] ∨ s.head? = some '\n') → Skipped ('#' :: x) s
  | comment {x s} : ¬ ['*', '/'] <:+: x ++ ['*'] → Skipped ('/' :: '*' :: x ++ ['*', '/']) s

/-- `WordTiling` (Spec/Words.lean) in which everything ends where it should. -/
inductive ExactTiling : Nat → List Char → List Tok → Prop where
  | nil {l} : ExactTiling l [] []
  | skip {l x s w} : Skipped x s → ExactTiling (l + countNL x) s w → ExactTiling l (x ++ s) w
  | tok {l t x s w} : TokText t x → t < tEND → Whole t s → EndsWell t x s →
      ExactTiling (l + countNL x) s w → ExactTiling l (x ++ s) (⟨t, x, l, l + countNL x⟩ :: w)

end Pycep
