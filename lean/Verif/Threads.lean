import Verif.Session
/-
Calls of the public methods in several threads.  The recursion of the transformer (Lark's
`Transformer._transform_tree`, `_transform_children`) is taken apart into single steps, and the steps of
different calls may be taken in any order.  What the threads share is the memory with the objects
`BicepToJson`, each of which has its lists `imports` and `child_resources` (transformer.py:33-37), and the
Lark object, which is not changed by parsing (main.py:23-25), so that building the tree is one step.
Simplification: a method of the transformer is one step, although the interpreter can switch threads
inside of it; the methods have no access to other objects than the arguments and `self`.
-/
namespace Pycep

/-- a pending piece of work of the transformer: a tree to be transformed, or a method to be called with the
last `n` values -/
inductive Task where
  | visit (t : Tree)
  | call (rule : String) (n : Nat) (sp : Option Span)

/-- the address of a transformer -/
abbrev Addr := Nat
/-- the transformers that have been made -/
abbrev Memory := List TState

/-- a call in progress -/
inductive Thread where
  /-- nothing done yet -/
  | start (p : Parser) (c : Call)
  /-- main.py:28 is done, the tree is there -/
  | parsed (ln : Bool) (t : Tree)
  /-- transforming with the transformer at `a` (main.py:29); the last value first -/
  | running (ln : Bool) (a : Addr) (todo : List Task) (vals : List Val)
  | done (o : Outcome)

/-- the method of a node (`Transformer._call_userfunc`) -/
def callRule (ln : Bool) (rule : String) (sp : Option Span) (args : List Val) (st : TState) : Except VErr (Val × TState) :=
  match callbacks.lookup rule with
  | some f => match f ln sp args st with
    | .ok r => .ok r
    | .error e => .error (.visit rule e)
  | .none => .error (.noCallback rule)

/-- what `parse` raises if the transformer raises `e` -/
def raised : VErr → ApiErr
  | .visit r e => .visitError r e
  | .noCallback _ => .internal

/-- one step of a thread -/
def Thread.step (m : Memory) : Thread → Thread × Memory
  | .start p (.createTree text path) => (.done (.tree (p.createTree text path)), m)
  | .start p (.parse text path) =>
    match createTree' text path with
    | .error e => (.done (.value (.error e)), m)
    | .ok t => (.parsed p.addLineNumbers t, m)
  | .parsed ln t => (.running ln m.length [.visit t] [], m ++ [⟨[], []⟩])
  | .running ln a (.visit (.tok t) :: todo) vals =>
    (.running ln a todo (.tok (termName t.type) (String.ofList t.text) :: vals), m)
  | .running ln a (.visit .none :: todo) vals => (.running ln a todo (.none :: vals), m)
  | .running ln a (.visit (.node d kids sp) :: todo) vals =>
    (.running ln a (kids.map .visit ++ .call d kids.length sp :: todo) vals, m)
  | .running ln a (.call d n sp :: todo) vals =>
    match callRule ln d sp (vals.take n).reverse (m.getD a ⟨[], []⟩) with
    | .ok (v, st) => (.running ln a todo (v :: vals.drop n), m.set a st)
    | .error e => (.done (.value (.error (raised e))), m)
  | .running _ _ [] (v :: _) => (.done (.value (.ok v)), m)
  | .running _ _ [] [] => (.done (.value (.error .internal)), m)
  | .done o => (.done o, m)

/-- all calls and the memory -/
structure Threads where
  threads : List Thread
  mem : Memory

/-- the thread with number `i` takes a step -/
def Threads.step (s : Threads) (i : Nat) : Threads :=
  match s.threads[i]? with
  | .none => s
  | some t => let (t, m) := t.step s.mem; ⟨s.threads.set i t, m⟩

/-- the threads take steps in the order `σ` -/
def Threads.run (s : Threads) (σ : List Nat) : Threads := σ.foldl Threads.step s

/-- calls of methods of parsers, in a memory with any transformers of earlier calls -/
def Threads.init (m : Memory) (cs : List (Parser × Call)) : Threads := ⟨cs.map fun c => .start c.1 c.2, m⟩

end Pycep
