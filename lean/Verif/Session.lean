import Verif.Parser
/-
Several calls on one `BicepParser` object.  The object itself holds the flag `add_line_numbers` and
the Lark object (main.py:23-25), which is not changed by parsing; every call of `parse` builds a new
transformer (main.py:29) whose lists `imports` and `child_resources` start empty
(transformer.py:33-37).  What the calls leave behind is kept in `World`.
-/
namespace Pycep

/-- one call of a public method -/
inductive Call where
  | parse (text : Option String) (path : Option PathArg)
  | createTree (text : Option String) (path : Option PathArg)

/-- what a call gives back -/
inductive Outcome where
  | value (r : Except ApiErr Val)
  | tree (r : Except ApiErr String)

/-- What earlier calls left in memory: the lists of the transformers used so far. -/
structure World where
  transformers : List TState

/-- `BicepToJson(add_line_numbers=...)` (transformer.py:33-37): the new object, whatever objects
already exist. -/
def newTransformer (_ : World) : TState := ⟨[], []⟩

/-- `self.parse(...)` (main.py:27-29) in a world. -/
def Parser.parseIn (p : Parser) (w : World) (text : Option String) (path : Option PathArg) :
    Except ApiErr Val × World :=
  match createTree' text path with
  | .error e => (.error e, w)
  | .ok tree =>
    match transform p.addLineNumbers tree (newTransformer w) with
    | .ok (v, st) => (.ok v, ⟨w.transformers ++ [st]⟩)
    | .error (.visit r e) => (.error (.visitError r e), w)
    | .error (.noCallback _) => (.error .internal, w)

/-- one call -/
def Parser.step (p : Parser) (w : World) : Call → Outcome × World
  | .parse text path => let (r, w) := p.parseIn w text path; (.value r, w)
  | .createTree text path => (.tree (p.createTree text path), w)

/-- a sequence of calls -/
def Parser.run (p : Parser) : World → List Call → List Outcome
  | _, [] => []
  | w, c :: cs => let (o, w) := p.step w c; o :: p.run w cs

end Pycep
