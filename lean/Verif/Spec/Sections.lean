import Verif.Spec.Ast
/-
The section of the result in which a declaration is reported.
-/
namespace Pycep

/-- the section in which a declaration is reported, along with what is nested in it -/
def Decl.reportedIn : Decl → String
  | .scope _ => "globals"
  | .importNs _ => "imports"
  | .importFrom _ _ _ => "imports"
  | .extension _ _ _ => "extensions"
  | .metadata _ _ => "metadata"
  | .param _ _ _ _ => "parameters"
  | .var _ _ _ _ => "variables"
  | .output _ _ _ _ => "outputs"
  | .resource _ _ _ _ _ => "resources"
  | .module _ _ _ _ => "modules"
  | .typ _ _ _ _ => "types"
  | .func _ _ _ _ _ => "functions"

/-- the declarations that are reported in the chosen sections -/
def Program.only (K : String → Bool) (p : Program) : Program := p.filter (fun d => K d.2.reportedIn)

end Pycep
