import Verif.Py
/-
The size of a result.
-/
namespace Pycep

mutual
/-- The number of values in a value: itself, and what it contains at any depth. -/
def Val.nodes : Val → Nat
  | .dict d => 1 + nodesOfItems d
  | .list l => 1 + nodesOf l
  | .tup2 a b => 1 + (a.nodes + b.nodes)
  | _ => 1
/-- the number of values in the entries of a dictionary -/
def nodesOfItems : List (String × Val) → Nat
  | [] => 0
  | (_, v) :: d => v.nodes + nodesOfItems d
/-- the number of values in several values -/
def nodesOf : List Val → Nat
  | [] => 0
  | v :: l => v.nodes + nodesOf l
end

/-- `x`, `( x => 1 )`, `( ( x => 1 ) => 1 )`, ...: a lambda expression with a variable that is a lambda
expression with a variable ... -/
def nestedLambda : Nat → String
  | 0 => "x "
  | n + 1 => "( " ++ nestedLambda n ++ "=> 1 ) "

/-- `var v = ...` with a nested lambda expression -/
def nestedText (n : Nat) : String := "var v = " ++ nestedLambda n ++ "\n "

end Pycep
