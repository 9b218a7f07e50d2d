"""Compare the executable Lean model with the expected results stored in /repo/tests.

This is a fidelity check of the model (it does not run the project's code) and no substitute for
the proofs.  Usage: python3 tools/compare_examples.py
"""
import json, pathlib, subprocess, tempfile

# Lean driver that prints the result of the model for each file given on the command line.
DRIVER = r"""
import Verif.Parser
/- Runs the model on Bicep files and prints the result as JSON, one line per file.
Usage (from lean/): lake env lean --run ../tools/RunExamples.lean (--ln|--no-ln) files...  -/
open Pycep

def jsonStr (s : String) : String := Id.run do
  let mut o := "\""
  for c in s.toList do
    if c == '"' then o := o ++ "\\\""
    else if c == '\\' then o := o ++ "\\\\"
    else if c.toNat < 32 then o := o ++ "\\u" ++ String.ofList (hexPad 4 c.toNat)
    else o := o.push c
  return o ++ "\""

partial def toJson : Val → String
  | .none => "null"
  | .bool b => if b then "true" else "false"
  | .int i => toString i
  | .str s => jsonStr s
  | .elem s => jsonStr s
  | .tok t s => jsonStr s!"TOKEN {t} {s}"
  | .list l => "[" ++ ", ".intercalate (l.map toJson) ++ "]"
  | .tup2 a b => "[" ++ toJson a ++ "," ++ toJson b ++ "]"
  | .dict d => "{" ++ ", ".intercalate (d.map fun (k, v) => jsonStr k ++ ":" ++ toJson v) ++ "}"

def main (args : List String) : IO Unit := do
  match args with
  | flag :: files =>
    for f in files do
      let text ← IO.FS.readFile f
      match (Parser.mk (flag == "--ln")).parse (some text) none with
      | .ok v => IO.println (toJson v)
      | .error e => IO.println (jsonStr (toString (repr e)))
      (← IO.getStdout).flush
  | [] => pure ()
"""
root = pathlib.Path("/repo/tests")
lean = pathlib.Path(__file__).resolve().parent.parent / "lean"
cases = []
for f in sorted(root.rglob("*.bicep")):
    r = f.parent / "result.json"
    if r.exists():
        cases.append((f, r, "--no-ln"))
    r = f.parent / "result-line-numbers.json"
    if r.exists():
        cases.append((f, r, "--ln"))
bad = 0
driver = pathlib.Path(tempfile.mkdtemp()) / "RunExamples.lean"
driver.write_text(DRIVER)
for flag in ("--no-ln", "--ln"):
    cs = [c for c in cases if c[2] == flag]
    out = subprocess.run(["lake", "env", "lean", "--run", str(driver), flag] + [str(c[0]) for c in cs],
                         cwd=lean, capture_output=True, text=True)
    lines = out.stdout.splitlines()
    if len(lines) != len(cs):
        print(out.stderr[-2000:])
    for (f, r, _), l in zip(cs, lines):
        if json.loads(l) != json.loads(r.read_text()):
            bad += 1
            print("DIFF", f, l[:300])
print(len(cases), "cases", bad, "differences")
