import Verif.Parser
/-
`pathlib.Path.read_text()` (called in main.py:42) on a file whose content can be decoded: the file is
opened in text mode with `newline=None`, i.e. with universal newlines.
-/
namespace Pycep

/-- Universal newlines (Python's `open(..., newline=None)`): on reading, `\r\n` and a `\r` on its own
become `\n`. -/
def universal : List Char → List Char
  | [] => []
  | c :: s =>
    if c = '\r' then
      if s.head? = some '\n' then universal s else '\n' :: universal s
    else c :: universal s

/-- A path to a file with the characters `raw` (main.py:42: `file_path.read_text()`). -/
def PathArg.ofFile (name : String) (raw : String) : PathArg :=
  ⟨name, .ok (String.ofList (universal raw.toList))⟩

end Pycep
