#!/usr/bin/env python3
"""Writes Verif/LarkRules.lean: what the Lean functions of Verif/LarkGrammar.lean and
Verif/LarkCompile.lean make of the grammar file, printed once so that the kernel need not recompute
it.  Verif/Proofs/LarkCheck.lean proves that these are their values."""
import subprocess
SRC = r'''
import Verif.LarkCompile
open Pycep.Lark
def q (c : Char) : String :=
  if c == '\'' then "'\\''" else if c == '\\' then "'\\\\'" else s!"'{c}'"
def cl (l : List Char) : String := "[" ++ ",".intercalate (l.map q) ++ "]"
def pp : Pat → String
  | .str s => s!".str {cl s}"
  | .re s => s!".re {cl s}"
def ee : Ebnf → String
  | .tok t k => s!"(.tok {t} {k})"
  | .rule n => s!"(.rule {n})"
  | .eps => ".eps"
  | .cat a b => s!"(.cat {ee a} {ee b})"
  | .alt a b => s!"(.alt {ee a} {ee b})"
  | .opt a => s!"(.opt {ee a})"
  | .maybe a => s!"(.maybe {ee a})"
  | .plus a => s!"(.plus {ee a})"
  | .star a => s!"(.star {ee a})"
def al : Option (List Char) → String
  | none => ".none"
  | some n => s!".some {cl n}"
def ss := (readFile grammarChars).getD []
def tt := (loadTerms ss ((readFile commonChars).getD [])).getD []
def gg := (loadRules tt ss).getD []
def hh := allHelpers gg
def rr := (compile gg).getD []
def nl : String := ",\n  "
#eval IO.println s!"/-- The terminals, in the order in which the lexer tries them. -/
def larkTerms : List TermDef := [
  {nl.intercalate (tt.map fun t => s!"⟨{cl t.name}, {t.prio}, {pp t.pat}⟩")}]

/-- The rules in extended Backus-Naur form. -/
def larkRules : List RuleDef := [
  {nl.intercalate (gg.map fun d => s!"-- {String.ofList d.name}\n  ⟨{d.id}, {cl d.name}, {d.expand1}, {d.inline},\n    [{",\n     ".intercalate (d.alts.map fun a => s!"({ee a.1}, {al a.2})")}]⟩")}]

/-- The helper rules. -/
def larkHelpers : List Helper := [
  {nl.intercalate (hh.map fun h => s!"⟨{ee h.body}, {h.id}, {cl h.name}⟩")}]

/-- The plain rules. -/
def larkPlain : List CRule := [
  {nl.intercalate (rr.map fun r => s!"⟨{r.lhs}, {r.rhs}, {cl r.name}, {r.expand1}, {r.keep}, {r.tailNones}⟩")}]"
'''
open('/tmp/gen_larkrules.lean', 'w').write(SRC)
out = subprocess.run(['lake', 'env', 'lean', '/tmp/gen_larkrules.lean'], cwd='/verif/lean',
                     capture_output=True, text=True)
assert out.returncode == 0, out.stdout + out.stderr
open('/verif/lean/Verif/LarkRules.lean', 'w').write('''import Verif.LarkCompile
/-
GENERATED by tools/gen_larkrules.py. Do not edit.
The terminals and rules that pycep/bicep.lark defines; Verif/Proofs/LarkCheck.lean proves that they
are what the functions of Verif/LarkGrammar.lean and Verif/LarkCompile.lean make of its text.
-/
namespace Pycep.Lark

''' + out.stdout.rstrip() + '\n\nend Pycep.Lark\n')
