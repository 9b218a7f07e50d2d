import Verif.Props.Values
import Verif.Spec.DecoTable
/-
C27-C33, C50: functions and decorators.
-/
namespace Pycep
open Functions

/-! ### Function calls -/

/-- what is reported about a function call -/
theorem call_at {ln : Bool} {f : FunName} {es : List Expr} {y : Val} (h : (Expr.call f es).val ln = .ok y) :
    ∃ vs data, Expr.vals ln es = .ok vs ∧ FunVal (String.ofList f.1) vs data ∧ y = .dict [("function", data)] := by
  rw [Expr.val] at h
  obtain ⟨vs, hvs, h⟩ := bind_ok' h
  obtain ⟨data, hd, h⟩ := bind_ok' h
  cases h
  exact ⟨vs, data, hvs, funVal_iff.mp (inRule_ok hd), rfl⟩

/-- **C27.** With and without its prefix a function of the table gives the same result or the same
failure, for all arguments. -/
theorem C27_function_prefix {s : Signature} (hs : s ∈ signatures) (args : List Val) :
    getFunction (s.ns ++ "." ++ s.name) (s.ns ++ "." ++ s.name) args = getFunction s.name s.name args := by
  unfold getFunction
  have key : ∀ s ∈ signatures, ∃ g : FuncDef, FUNCTIONS.lookup (s.ns ++ "." ++ s.name) = some g ∧
      FUNCTIONS.lookup s.name = some g ∧ ∀ n m args, g n args = g m args := by
    simp only [signatures, List.forall_mem_cons, List.not_mem_nil, false_implies, implies_true, and_true]
    repeat' apply And.intro
    all_goals exact ⟨_, rfl, rfl, fun _ _ _ => rfl⟩
  obtain ⟨g, h1, h2, h3⟩ := key s hs
  rw [h1, h2]
  exact h3 _ _ _

/-- **C27.** The same for decorators and `sys.`. -/
theorem C27_decorator_prefix {n : String} (hn : n ∈ knownDecos) (args : List Val) :
    Decorators.getDecorator ("sys." ++ n) ("sys." ++ n) args = Decorators.getDecorator n n args := by
  have key : ∀ n ∈ knownDecos, ∃ g : Decorators.DecoDef, Decorators.DECORATORS.lookup ("sys." ++ n) = some g ∧
      Decorators.DECORATORS.lookup n = some g ∧ ∀ n m args, g n args = g m args := by
    simp only [knownDecos, carriers, flags, List.map_cons, List.map_nil, List.cons_append, List.nil_append,
      List.forall_mem_cons, List.not_mem_nil, false_implies, implies_true, and_true]
    repeat' apply And.intro
    all_goals exact ⟨_, rfl, rfl, fun _ _ _ => rfl⟩
  obtain ⟨g, h1, h2, h3⟩ := key n hn
  unfold Decorators.getDecorator
  rw [h1, h2]
  exact h3 _ _ _

/-- **C27.** In programs: two calls with the same arguments, one with and one without the prefix,
mean the same, including failures. -/
theorem C27_calls {s : Signature} (hs : s ∈ signatures) {f g : FunName} (hf : String.ofList f.1 = s.name)
    (hg : String.ofList g.1 = s.ns ++ "." ++ s.name) (ln : Bool) (es : List Expr) :
    (Expr.call g es).val ln = (Expr.call f es).val ln := by
  rw [Expr.val, Expr.val]
  simp only [txt, hf, hg, C27_function_prefix hs]

/-- **C27.** The same for decorators. -/
theorem C27_decorators {n : String} (hn : n ∈ knownDecos) {f g : DecoName} (hf : String.ofList f.1 = n)
    (hg : String.ofList g.1 = "sys." ++ n) (ln : Bool) (arg : Option Expr) :
    Deco.val ln ⟨g, arg⟩ = Deco.val ln ⟨f, arg⟩ := by
  unfold Deco.val
  simp only [txt, hf, hg, C27_decorator_prefix hn]

/-- **C28.** A call of a function that is not in the table is represented by the name and all
arguments, numbered from 1. -/
theorem C28_unknown_functions {P : Parser} {text path v} (h : P.parse text path = .ok v) :
    ∃ t p, chosenText text path = .ok t ∧ Spells t p ∧
      ∀ {s n π f es}, p.At s n π (.expr (.call f es)) → (∀ s ∈ signatures, String.ofList f.1 ∉ s.names) →
        ∃ vs, Expr.vals P.addLineNumbers es = .ok vs ∧
          v.at? (.key s :: .key n :: π) = some (.dict [("function", .dict [("type", .str (String.ofList f.1)),
            ("parameters", .dict (numbered "arg_" 1 vs))])]) := by
  obtain ⟨t, p, h1, h2, h3⟩ := parse_at h
  refine ⟨t, p, h1, h2, fun ha hf => ?_⟩
  obtain ⟨y, hy, hat⟩ := h3 ha
  obtain ⟨vs, data, hvs, hd, rfl⟩ := call_at hy
  refine ⟨vs, hvs, ?_⟩
  rw [hat]
  cases hd with
  | known hs hf' _ => exact absurd hf' (hf _ hs)
  | bare hs hf' _ => exact absurd hf' (hf _ hs)
  | unknown _ => rfl

/-- **C28.** Such a call fails only if one of its arguments does. -/
theorem C28_unknown_never_fails {f : FunName} (hf : ∀ s ∈ signatures, String.ofList f.1 ∉ s.names) {ln : Bool}
    {es : List Expr} {vs : List Val} (hvs : Expr.vals ln es = .ok vs) : ∃ y, (Expr.call f es).val ln = .ok y := by
  rw [Expr.val, hvs]
  have := getFunction_unknown hf (txt f.1) vs
  simp only [bind, Except.bind, this, inRule]
  exact ⟨_, rfl⟩

/-- numbers of arguments each function takes: at least, at most -/
def arities : List (String × Nat × Option Nat) := [
  ("any", 1, .none), ("array", 1, .none), ("concat", 1, .none), ("contains", 2, some 2), ("empty", 1, .none),
  ("first", 1, .none), ("flatten", 1, .none), ("intersection", 2, .none), ("last", 1, .none), ("length", 1, .none),
  ("max", 1, .none), ("min", 1, .none), ("range", 2, some 2), ("skip", 2, some 2), ("take", 2, some 2),
  ("union", 2, .none), ("dateTimeAdd", 2, .none), ("dateTimeFromEpoch", 1, .none), ("dateTimeToEpoch", 1, .none),
  ("utcNow", 0, .none), ("deployment", 0, .none), ("environment", 0, .none), ("loadFileAsBase64", 1, .none),
  ("loadJsonContent", 1, .none), ("loadTextContent", 1, .none), ("loadYamlContent", 1, .none),
  ("filter", 2, some 2), ("bool", 1, .none), ("int", 1, .none), ("json", 1, .none),
  ("extensionResourceId", 3, .none), ("listKeys", 2, some 2), ("managementGroupResourceId", 2, .none),
  ("pickZones", 3, .none), ("reference", 1, .none), ("resourceId", 2, .none), ("subscriptionResourceId", 2, .none),
  ("tenantResourceId", 2, .none), ("managementGroup", 0, .none), ("resourceGroup", 0, .none),
  ("subscription", 0, .none), ("tenant", 0, .none), ("base64", 1, .none), ("base64ToJson", 1, .none),
  ("base64ToString", 1, .none), ("dataUri", 1, .none), ("dataUriToString", 1, .none), ("endsWith", 2, some 2),
  ("format", 1, .none), ("guid", 1, .none), ("indexOf", 2, some 2), ("join", 2, some 2), ("lastIndexOf", 2, some 2),
  ("newGuid", 0, .none), ("padLeft", 2, .none), ("replace", 3, some 3), ("split", 2, some 2),
  ("startsWith", 2, some 2), ("string", 1, .none), ("substring", 2, .none), ("toLower", 1, .none),
  ("toUpper", 1, .none), ("trim", 1, .none), ("uniqueString", 1, .none), ("uri", 2, some 2),
  ("uriComponent", 1, .none), ("uriComponentToString", 1, .none)]

/-- `n` arguments are accepted -/
def Accepts (a : Nat × Option Nat) (n : Nat) : Prop := a.1 ≤ n ∧ ∀ hi, a.2 = some hi → n ≤ hi

theorem accepts_table : List.Forall₂ (fun (s : Signature) (a : String × Nat × Option Nat) =>
    s.name = a.1 ∧ ∀ args, s.report args = .refused ↔ ¬ Accepts a.2 args.length) signatures arities := by
  have hat : ∀ ks args, Signature.atLeast ks args = .refused ↔ ¬ Accepts (ks.length, .none) args.length := by
    intro ks args; unfold Signature.atLeast Accepts; split <;> simp <;> omega
  have hex : ∀ ks args, Signature.exactly ks args = .refused ↔ ¬ Accepts (ks.length, some ks.length) args.length := by
    intro ks args; unfold Signature.exactly Accepts; split <;> simp <;> omega
  have hso : ∀ r ks args, Signature.someOf r ks args = .refused ↔ ¬ Accepts (r, .none) args.length := by
    intro r ks args; unfold Signature.someOf Accepts; split <;> simp <;> omega
  have hva : ∀ ks pre s args, Signature.variadic ks pre s args = .refused ↔ ¬ Accepts (ks.length, .none) args.length := by
    intro ks pre s args; unfold Signature.variadic Accepts; split <;> simp <;> omega
  have hba : ∀ args, Signature.bare args = .refused ↔ ¬ Accepts (0, .none) args.length := by
    intro args; simp [Signature.bare, Accepts]
  have hup : ∀ ks args, Signature.upToThree ks args = .refused ↔ ¬ Accepts (1, .none) args.length := by
    intro ks args
    unfold Signature.upToThree Accepts
    by_cases h : args.length = 0
    · simp [h]
    · rw [if_neg h]
      constructor
      · intro h; cases h
      · intro h'; exact absurd ⟨by simp only; omega, by simp⟩ h'
  have hpz : ∀ args, Signature.pickZones args = .refused ↔ ¬ Accepts (3, .none) args.length := by
    intro args; unfold Signature.pickZones Accepts; split <;> simp <;> omega
  have hlk : ∀ args, Signature.listKeys args = .refused ↔ ¬ Accepts (2, some 2) args.length := by
    intro args; unfold Signature.listKeys Accepts; split <;> simp <;> omega
  have hri : ∀ args, Signature.resourceId args = .refused ↔ ¬ Accepts (2, .none) args.length := by
    intro args; unfold Signature.resourceId Accepts; split <;> simp_all <;> omega
  have hsi : ∀ args, Signature.subscriptionResourceId args = .refused ↔ ¬ Accepts (2, .none) args.length := by
    intro args; unfold Signature.subscriptionResourceId Accepts; split <;> simp_all
    have : args.length ≠ 0 := by simpa using ‹¬args = []›
    omega
  have hrg : ∀ args, Signature.resourceGroup args = .refused ↔ ¬ Accepts (0, .none) args.length := by
    intro args; unfold Signature.resourceGroup Accepts; split <;> (try split) <;> simp
  unfold signatures arities
  repeat' apply List.Forall₂.cons
  all_goals first
    | exact .nil
    | exact ⟨rfl, fun args => hso 0 _ args⟩
    | exact ⟨rfl, fun args => hat _ args⟩
    | exact ⟨rfl, fun args => hex _ args⟩
    | exact ⟨rfl, fun args => hso _ _ args⟩
    | exact ⟨rfl, fun args => hva _ _ _ args⟩
    | exact ⟨rfl, hba⟩
    | exact ⟨rfl, fun args => hup _ args⟩
    | exact ⟨rfl, hpz⟩
    | exact ⟨rfl, hlk⟩
    | exact ⟨rfl, hri⟩
    | exact ⟨rfl, hsi⟩
    | exact ⟨rfl, hrg⟩

/-- **C30.** A function of the table accepts exactly the numbers of arguments listed, whatever the
arguments are. -/
theorem C30_arities {s : Signature} (hs : s ∈ signatures) : ∃ a, (s.name, a) ∈ arities ∧
    ∀ f ∈ s.names, ∀ args : List Val, (∃ v, getFunction f f args = .ok v) ↔ Accepts a args.length := by
  have h : ∀ (ss : List Signature) as, List.Forall₂ (fun (s : Signature) (a : String × Nat × Option Nat) =>
      s.name = a.1 ∧ ∀ args, s.report args = .refused ↔ ¬ Accepts a.2 args.length) ss as →
      ∀ s ∈ ss, ∃ a, (s.name, a) ∈ as ∧ ∀ args, s.report args = .refused ↔ ¬ Accepts a args.length := by
    intro ss as h
    induction h with
    | nil => simp
    | @cons s' a ss as h1 _ ih =>
      intro s hs
      rcases List.mem_cons.mp hs with rfl | hs
      · exact ⟨a.2, by rw [h1.1]; exact List.mem_cons_self .., h1.2⟩
      · obtain ⟨a', h2, h3⟩ := ih s hs
        exact ⟨a', List.mem_cons_of_mem _ h2, h3⟩
  obtain ⟨a, ha, hr⟩ := h _ _ accepts_table s hs
  refine ⟨a, ha, fun f hf args => ?_⟩
  have he := @funErr_iff f args
  have h1 : (∃ s ∈ signatures, f ∈ s.names ∧ s.report args = .refused) ↔ s.report args = .refused := by
    constructor
    · rintro ⟨s', hs', hf', hr'⟩
      rw [signature_unique hs hf hs' hf']; exact hr'
    · intro h; exact ⟨s, hs, hf, h⟩
  rw [h1, hr args] at he
  cases hg : getFunction f f args with
  | ok v =>
    rw [hg] at he
    simp only [reduceCtorEq, exists_false, false_iff, not_not] at he
    simp [he]
  | error e =>
    rw [hg] at he
    simp only [Except.error.injEq, exists_eq', true_iff] at he
    simp [he]

/-- **C30.** Every call of an accepted program has an accepted number of arguments; a program with
any other call makes `parse` fail. -/
theorem C30_calls {text path tree} (h : createTree' text path = .ok tree) :
    ∃ t p, chosenText text path = .ok t ∧ Spells t p ∧
      ∀ (P : Parser) {f es s a}, p.Has (.expr (.call f es)) → s ∈ signatures → String.ofList f.1 ∈ s.names →
        (s.name, a) ∈ arities → ¬ Accepts a es.length → ∃ r e, P.parse text path = .error (.visitError r e) := by
  obtain ⟨t, p, h1, h2, h3⟩ := tree_has h
  refine ⟨t, p, h1, h2, fun P f es s a hh hs hf ha hna => h3 P hh ?_⟩
  intro y hy
  rw [Node.val, Expr.val] at hy
  obtain ⟨vs, hvs, hy⟩ := bind_ok' hy
  obtain ⟨data, hd, hy⟩ := bind_ok' hy
  obtain ⟨a', ha', hacc⟩ := C30_arities hs
  have hnd : (arities.map Prod.fst).Nodup := by decide +kernel
  have : a = a' := fst_unique hnd ha ha'
  subst this
  have := (hacc _ hf vs).mp ⟨data, inRule_ok hd⟩
  rw [← (vals_getElem hvs).1] at this
  exact hna this

/-- **C31.** What is reported about a call of a function of the table: every parameter is one of the
arguments as it is, `None` for an optional argument that is not given, or the text `listKeys`. -/
theorem C31_arguments_unaltered {P : Parser} {text path v} (h : P.parse text path = .ok v) :
    ∃ t p, chosenText text path = .ok t ∧ Spells t p ∧
      ∀ {s n π f es}, p.At s n π (.expr (.call f es)) →
        ∃ vs data, Expr.vals P.addLineNumbers es = .ok vs ∧ FunVal (String.ofList f.1) vs data ∧
          v.at? (.key s :: .key n :: π) = some (.dict [("function", data)]) ∧
          ∀ d, data.at? [.key "parameters"] = some (.dict d) → ∀ kx ∈ d,
            kx.2 ∈ vs ∨ kx.2 = .none ∨ kx = ("func_name", .str "listKeys") := by
  obtain ⟨t, p, h1, h2, h3⟩ := parse_at h
  refine ⟨t, p, h1, h2, fun {s n π f es} ha => ?_⟩
  obtain ⟨y, hy, hat⟩ := h3 ha
  obtain ⟨vs, data, hvs, hd, rfl⟩ := call_at hy
  refine ⟨vs, data, hvs, hd, hat, ?_⟩
  cases hd with
  | bare hs hf hr => intro d hd'; simp [Val.at?, Val.step?, dGet] at hd'
  | unknown hu =>
    intro d hd' kx hk
    simp [Val.at?, Val.step?, dGet] at hd'
    subst hd'
    left
    have : ∀ (vs : List Val) k, ∀ q ∈ numbered "arg_" k vs, q.2 ∈ vs := by
      intro vs
      induction vs with
      | nil => simp [numbered]
      | cons v vs ih =>
        intro k q hq
        rcases List.mem_cons.mp hq with rfl | hq
        · simp
        · exact List.mem_cons_of_mem _ (ih _ _ hq)
    exact this _ _ _ hk
  | @known s ps hs hf hr =>
    intro d hd' kx hk
    simp [Val.at?, Val.step?, dGet] at hd'
    subst hd'
    obtain ⟨⟨k, src⟩, hm, rfl⟩ := List.mem_map.mp hk
    cases src with
    | arg i =>
      simp only [Src.val]
      cases hi : vs[i]? with
      | none => right; left; rfl
      | some x => left; exact List.mem_of_getElem? hi
    | absent => right; left; rfl
    | text s' =>
      right; right
      -- only `listKeys` reports a fixed text
      have hfi : ∀ i ks, (k, Src.text s') ∉ Signature.firsts i ks := by
        intro i ks
        induction ks generalizing i with
        | nil => simp [Signature.firsts]
        | cons a ks ih => simp [Signature.firsts, ih]
      have hgi : ∀ m i ks, (k, Src.text s') ∉ Signature.given m i ks := by
        intro m i ks
        induction ks generalizing i with
        | nil => simp [Signature.given]
        | cons a ks ih => simp only [Signature.given, List.mem_cons, not_or]; exact ⟨by split <;> simp, ih _⟩
      have hre : ∀ pre a i m, (k, Src.text s') ∉ Signature.rest pre a i m := by
        intro pre a i m
        induction m generalizing a i with
        | zero => simp [Signature.rest]
        | succ m ih => simp [Signature.rest, ih]
      have key : ∀ s ∈ signatures, s.report vs = .params ps → k = "func_name" ∧ s' = "listKeys" := by
        have c1 : ∀ ks, Signature.atLeast ks vs = .params ps → k = "func_name" ∧ s' = "listKeys" := by
          intro ks hr; unfold Signature.atLeast at hr; split at hr <;> cases hr; exact absurd hm (hfi _ _)
        have c2 : ∀ ks, Signature.exactly ks vs = .params ps → k = "func_name" ∧ s' = "listKeys" := by
          intro ks hr; unfold Signature.exactly at hr; split at hr <;> cases hr; exact absurd hm (hfi _ _)
        have c3 : ∀ r ks, Signature.someOf r ks vs = .params ps → k = "func_name" ∧ s' = "listKeys" := by
          intro r ks hr; unfold Signature.someOf at hr; split at hr <;> cases hr; exact absurd hm (hgi _ _ _)
        have c4 : ∀ ks pre st, Signature.variadic ks pre st vs = .params ps → k = "func_name" ∧ s' = "listKeys" := by
          intro ks pre st hr; unfold Signature.variadic at hr; split at hr <;> cases hr
          rcases List.mem_append.mp hm with hm | hm
          · exact absurd hm (hfi _ _)
          · exact absurd hm (hre _ _ _ _)
        have c5 : Signature.bare vs = .params ps → k = "func_name" ∧ s' = "listKeys" := by intro hr; cases hr
        have c6 : ∀ ks, Signature.upToThree ks vs = .params ps → k = "func_name" ∧ s' = "listKeys" := by
          intro ks hr; unfold Signature.upToThree at hr; split at hr <;> cases hr; exact absurd hm (hgi _ _ _)
        have c7 : Signature.pickZones vs = .params ps → k = "func_name" ∧ s' = "listKeys" := by
          intro hr; unfold Signature.pickZones at hr; split at hr <;> cases hr; exact absurd hm (hgi _ _ _)
        have c8 : Signature.listKeys vs = .params ps → k = "func_name" ∧ s' = "listKeys" := by
          intro hr; unfold Signature.listKeys at hr; split at hr <;> cases hr; simpa using hm
        have c9 : Signature.resourceId vs = .params ps → k = "func_name" ∧ s' = "listKeys" := by
          intro hr; unfold Signature.resourceId at hr
          split at hr <;> cases hr
          · simp at hm
          · simp at hm
          · simp at hm
          · simp only [List.cons_append, List.mem_cons, List.mem_append] at hm
            simp [hre] at hm
        have c10 : Signature.subscriptionResourceId vs = .params ps → k = "func_name" ∧ s' = "listKeys" := by
          intro hr; unfold Signature.subscriptionResourceId at hr
          split at hr <;> cases hr <;> simp at hm
        have c11 : Signature.resourceGroup vs = .params ps → k = "func_name" ∧ s' = "listKeys" := by
          intro hr; unfold Signature.resourceGroup at hr
          split at hr
          · cases hr; simp at hm
          · split at hr <;> cases hr <;> simp at hm
          · cases hr; simp at hm
        simp only [signatures, List.forall_mem_cons, List.not_mem_nil, false_implies, implies_true, and_true]
        repeat' apply And.intro
        all_goals first
          | exact c1 _ | exact c2 _ | exact c3 _ _ | exact c4 _ _ _ | exact c5 | exact c6 _ | exact c7 | exact c8
          | exact c9 | exact c10 | exact c11
      obtain ⟨rfl, rfl⟩ := key s hs hr
      rfl

/-- known functions are reported as their signature says -/
theorem funVal_known {f : String} {vs : List Val} {data : Val} (h : FunVal f vs data) {s : Signature}
    (hs : s ∈ signatures) (hf : f ∈ s.names) {ps} (hr : s.report vs = .params ps) :
    data = .dict [("type", .str s.type), ("parameters", .dict (ps.map (fun p => (p.1, p.2.val vs))))] := by
  cases h with
  | known hs' hf' hr' =>
    have := signature_unique hs hf hs' hf'
    subst this
    rw [hr] at hr'
    cases hr'; rfl
  | bare hs' hf' hr' =>
    have := signature_unique hs hf hs' hf'
    subst this
    rw [hr] at hr'
    cases hr'
  | unknown hu => exact absurd hf (hu s hs)

/-- refused calls are not reported -/
theorem funVal_not_refused {f : String} {vs : List Val} {data : Val} (h : FunVal f vs data) {s : Signature}
    (hs : s ∈ signatures) (hf : f ∈ s.names) : s.report vs ≠ .refused := by
  cases h with
  | known hs' hf' hr' =>
    have := signature_unique hs hf hs' hf'
    subst this
    rw [hr']; simp
  | bare hs' hf' hr' =>
    have := signature_unique hs hf hs' hf'
    subst this
    rw [hr']; simp
  | unknown hu => exact absurd hf (hu s hs)

theorem rest_numbered (pre : String) (a : Nat) (xs vs : List Val) :
    (Signature.rest pre a xs.length vs.length).map (fun p => (p.1, p.2.val (xs ++ vs))) = numbered pre a vs := by
  induction vs generalizing a xs with
  | nil => rfl
  | cons v vs ih =>
    simp only [List.length_cons, Signature.rest, List.map_cons, numbered]
    have := ih (a + 1) (xs ++ [v])
    simp only [List.length_append, List.length_singleton, List.append_assoc, List.singleton_append] at this
    rw [this]
    simp [Src.val]

/-- **C29.** `concat`, `min` and `max` report all arguments, numbered from 1, for every number of
arguments from one on. -/
theorem C29_from_one {P : Parser} {text path v} (h : P.parse text path = .ok v) :
    ∃ t p, chosenText text path = .ok t ∧ Spells t p ∧
      ∀ {s n π f es g}, p.At s n π (.expr (.call f es)) → g ∈ ["concat", "min", "max"] →
        String.ofList f.1 = g ∨ String.ofList f.1 = "sys." ++ g →
        ∃ vs, Expr.vals P.addLineNumbers es = .ok vs ∧ 1 ≤ vs.length ∧
          v.at? (.key s :: .key n :: π) = some (.dict [("function", .dict [("type", .str g),
            ("parameters", .dict (numbered "arg_" 1 vs))])]) := by
  obtain ⟨t, p, h1, h2, h3⟩ := parse_at h
  refine ⟨t, p, h1, h2, fun {s n π f es g} ha hg hf => ?_⟩
  obtain ⟨y, hy, hat⟩ := h3 ha
  obtain ⟨vs, data, hvs, hd, rfl⟩ := call_at hy
  refine ⟨vs, hvs, ?_⟩
  have hmem : (⟨"sys", g, g, Signature.variadic ["arg_1"] "arg_" 2⟩ : Signature) ∈ signatures := by
    simp only [List.mem_cons, List.not_mem_nil, or_false] at hg
    rcases hg with rfl | rfl | rfl <;> simp [signatures]
  have hn : String.ofList f.1 ∈ Signature.names ⟨"sys", g, g, Signature.variadic ["arg_1"] "arg_" 2⟩ := by
    simp only [Signature.names, List.mem_cons, List.not_mem_nil, or_false]
    rcases hf with hf | hf
    · exact .inl hf
    · refine .inr ?_
      rw [hf, show ("sys." : String) = "sys" ++ "." from rfl]
  have hnr := funVal_not_refused hd hmem hn
  cases vs with
  | nil => exact absurd (by simp [Signature.variadic]) hnr
  | cons a vs =>
    refine ⟨by simp, ?_⟩
    have hr : Signature.variadic ["arg_1"] "arg_" 2 (a :: vs) =
        .params (Signature.firsts 0 ["arg_1"] ++ Signature.rest "arg_" 2 1 vs.length) := by
      simp [Signature.variadic]
    have := funVal_known hd hmem hn hr
    rw [hat, this]
    have hre := rest_numbered "arg_" 2 [a] vs
    simp only [List.length_singleton, List.singleton_append] at hre
    rw [List.map_append, hre]
    have h1 : toString 1 = "1" := by decide
    simp [Signature.firsts, numbered, Src.val, h1]

/-- **C29.** `intersection` and `union` report all arguments, numbered from 1, for every number of
arguments from two on. -/
theorem C29_from_two {P : Parser} {text path v} (h : P.parse text path = .ok v) :
    ∃ t p, chosenText text path = .ok t ∧ Spells t p ∧
      ∀ {s n π f es g}, p.At s n π (.expr (.call f es)) → g ∈ ["intersection", "union"] →
        String.ofList f.1 = g ∨ String.ofList f.1 = "sys." ++ g →
        ∃ vs, Expr.vals P.addLineNumbers es = .ok vs ∧ 2 ≤ vs.length ∧
          v.at? (.key s :: .key n :: π) = some (.dict [("function", .dict [("type", .str g),
            ("parameters", .dict (numbered "arg_" 1 vs))])]) := by
  obtain ⟨t, p, h1, h2, h3⟩ := parse_at h
  refine ⟨t, p, h1, h2, fun {s n π f es g} ha hg hf => ?_⟩
  obtain ⟨y, hy, hat⟩ := h3 ha
  obtain ⟨vs, data, hvs, hd, rfl⟩ := call_at hy
  refine ⟨vs, hvs, ?_⟩
  have hmem : (⟨"sys", g, g, Signature.variadic ["arg_1", "arg_2"] "arg_" 3⟩ : Signature) ∈ signatures := by
    simp only [List.mem_cons, List.not_mem_nil, or_false] at hg
    rcases hg with rfl | rfl <;> simp [signatures]
  have hn : String.ofList f.1 ∈ Signature.names ⟨"sys", g, g, Signature.variadic ["arg_1", "arg_2"] "arg_" 3⟩ := by
    simp only [Signature.names, List.mem_cons, List.not_mem_nil, or_false]
    rcases hf with hf | hf
    · exact .inl hf
    · refine .inr ?_
      rw [hf, show ("sys." : String) = "sys" ++ "." from rfl]
  have hnr := funVal_not_refused hd hmem hn
  rcases vs with _ | ⟨a, _ | ⟨b, vs⟩⟩
  · exact absurd (by simp [Signature.variadic]) hnr
  · exact absurd (by simp [Signature.variadic]) hnr
  · refine ⟨by simp, ?_⟩
    have hr : Signature.variadic ["arg_1", "arg_2"] "arg_" 3 (a :: b :: vs) =
        .params (Signature.firsts 0 ["arg_1", "arg_2"] ++ Signature.rest "arg_" 3 2 vs.length) := by
      simp [Signature.variadic]
    have := funVal_known hd hmem hn hr
    rw [hat, this]
    have hre := rest_numbered "arg_" 3 [a, b] vs
    simp only [List.length_cons, List.length_nil, List.cons_append, List.nil_append] at hre
    rw [List.map_append, hre]
    have h1 : toString 1 = "1" := by decide
    have h2 : toString 2 = "2" := by decide
    simp [Signature.firsts, numbered, Src.val, h1, h2]

/-- **C29.** `format` reports the format and all further arguments, numbered from 1, for every number
of arguments. -/
theorem C29_format {P : Parser} {text path v} (h : P.parse text path = .ok v) :
    ∃ t p, chosenText text path = .ok t ∧ Spells t p ∧
      ∀ {s n π f es}, p.At s n π (.expr (.call f es)) →
        String.ofList f.1 = "format" ∨ String.ofList f.1 = "sys.format" →
        ∃ a vs, Expr.vals P.addLineNumbers es = .ok (a :: vs) ∧
          v.at? (.key s :: .key n :: π) = some (.dict [("function", .dict [("type", .str "format"),
            ("parameters", .dict (("format_string", a) :: numbered "arg_" 1 vs))])]) := by
  obtain ⟨t, p, h1, h2, h3⟩ := parse_at h
  refine ⟨t, p, h1, h2, fun {s n π f es} ha hf => ?_⟩
  obtain ⟨y, hy, hat⟩ := h3 ha
  obtain ⟨vs, data, hvs, hd, rfl⟩ := call_at hy
  have hmem : (⟨"sys", "format", "format", Signature.variadic ["format_string"] "arg_" 1⟩ : Signature) ∈ signatures := by
    simp [signatures]
  have hn : String.ofList f.1 ∈ Signature.names ⟨"sys", "format", "format", Signature.variadic ["format_string"] "arg_" 1⟩ := by
    simp only [Signature.names, List.mem_cons, List.not_mem_nil, or_false]
    rcases hf with hf | hf
    · exact .inl hf
    · refine .inr ?_
      rw [hf]; decide
  have hnr := funVal_not_refused hd hmem hn
  cases vs with
  | nil => exact absurd (by simp [Signature.variadic]) hnr
  | cons a vs =>
    refine ⟨a, vs, hvs, ?_⟩
    have hr : Signature.variadic ["format_string"] "arg_" 1 (a :: vs) =
        .params (Signature.firsts 0 ["format_string"] ++ Signature.rest "arg_" 1 1 vs.length) := by
      simp [Signature.variadic]
    have := funVal_known hd hmem hn hr
    rw [hat, this]
    have hre := rest_numbered "arg_" 1 [a] vs
    simp only [List.length_singleton, List.singleton_append] at hre
    rw [List.map_append, hre]
    simp [Signature.firsts, Src.val]

/-- **C29.** `coalesce` is not in the table, so that a call keeps all arguments and is accepted with
any number of them. (Usually it is written `a ?? b`, see C41.) -/
theorem C29_coalesce {P : Parser} {text path v} (h : P.parse text path = .ok v) :
    ∃ t p, chosenText text path = .ok t ∧ Spells t p ∧
      ∀ {s n π f es}, p.At s n π (.expr (.call f es)) →
        String.ofList f.1 = "coalesce" ∨ String.ofList f.1 = "sys.coalesce" →
        ∃ vs, Expr.vals P.addLineNumbers es = .ok vs ∧
          v.at? (.key s :: .key n :: π) = some (.dict [("function", .dict [("type", .str (String.ofList f.1)),
            ("parameters", .dict (numbered "arg_" 1 vs))])]) := by
  obtain ⟨t, p, h1, h2, h3⟩ := C28_unknown_functions h
  refine ⟨t, p, h1, h2, fun ha hf => h3 ha ?_⟩
  rcases hf with hf | hf <;> rw [hf] <;> decide +kernel

/-- a call of a known function is reported as its signature says -/
theorem known_call {P : Parser} {text path v} (h : P.parse text path = .ok v) :
    ∃ t p, chosenText text path = .ok t ∧ Spells t p ∧
      ∀ {s n π f es}, p.At s n π (.expr (.call f es)) → ∀ sig ∈ signatures, String.ofList f.1 ∈ sig.names →
        ∃ vs, Expr.vals P.addLineNumbers es = .ok vs ∧ sig.report vs ≠ .refused ∧
          ∀ ps, sig.report vs = .params ps → v.at? (.key s :: .key n :: π) =
            some (.dict [("function", .dict [("type", .str sig.type),
              ("parameters", .dict (ps.map (fun p => (p.1, p.2.val vs))))])]) := by
  obtain ⟨t, p, h1, h2, h3⟩ := parse_at h
  refine ⟨t, p, h1, h2, fun {s n π f es} ha sig hs hn => ?_⟩
  obtain ⟨y, hy, hat⟩ := h3 ha
  obtain ⟨vs, data, hvs, hd, rfl⟩ := call_at hy
  exact ⟨vs, hvs, funVal_not_refused hd hs hn, fun ps hps => by rw [hat, funVal_known hd hs hn hps]⟩

/-- the roles of the arguments of the functions that build resource ids, by their number; `none`: the
call is refused -/
def idParams (f : String) (vs : List Val) : Option (List (String × Val)) :=
  match f, vs with
  | "resourceId", [ty, a] => some [("resource_type", ty), ("resource_name_1", a), ("resource_name_2", .none),
      ("resource_group_name", .none), ("subscription_id", .none)]
  | "resourceId", [ty, a, b] => some [("resource_type", ty), ("resource_name_1", a), ("resource_name_2", b),
      ("resource_group_name", .none), ("subscription_id", .none)]
  | "resourceId", [g, ty, a, b] => some [("resource_type", ty), ("resource_name_1", a), ("resource_name_2", b),
      ("resource_group_name", g), ("subscription_id", .none)]
  | "resourceId", sub :: g :: ty :: a :: b :: names =>
      some (("resource_type", ty) :: numbered "resource_name_" 1 (a :: b :: names) ++
        [("resource_group_name", g), ("subscription_id", sub)])
  | "subscriptionResourceId", [ty, a] => some [("resource_type", ty), ("resource_name_1", a),
      ("resource_name_2", .none), ("subscription_id", .none)]
  | "subscriptionResourceId", [ty, a, b] => some [("resource_type", ty), ("resource_name_1", a),
      ("resource_name_2", b), ("subscription_id", .none)]
  | "subscriptionResourceId", sub :: ty :: a :: b :: _ => some [("resource_type", ty), ("resource_name_1", a),
      ("resource_name_2", b), ("subscription_id", sub)]
  | "extensionResourceId", [id, ty, a] => some [("resource_id", id), ("resource_type", ty),
      ("resource_name_1", a), ("resource_name_2", .none)]
  | "extensionResourceId", id :: ty :: a :: b :: _ => some [("resource_id", id), ("resource_type", ty),
      ("resource_name_1", a), ("resource_name_2", b)]
  | "tenantResourceId", [ty, a] | "managementGroupResourceId", [ty, a] =>
      some [("resource_type", ty), ("resource_name_1", a), ("resource_name_2", .none)]
  | "tenantResourceId", ty :: a :: b :: _ | "managementGroupResourceId", ty :: a :: b :: _ =>
      some [("resource_type", ty), ("resource_name_1", a), ("resource_name_2", b)]
  | _, _ => .none

/-- the functions that build resource ids, with their reported types -/
def idFunctions : List (String × String) := [("resourceId", "resource_id"),
  ("subscriptionResourceId", "subscription_resource_id"), ("tenantResourceId", "tenant_resource_id"),
  ("managementGroupResourceId", "management_group_resource_id"), ("extensionResourceId", "extension_resource_id")]

/-- **C52.** The functions that build resource ids report their arguments in the roles that follow
from the number of arguments, for every number of arguments; calls with fewer arguments than the
shortest form are refused. -/
theorem C52_resource_ids {P : Parser} {text path v} (h : P.parse text path = .ok v) :
    ∃ t p, chosenText text path = .ok t ∧ Spells t p ∧
      ∀ {s n π f es}, p.At s n π (.expr (.call f es)) → ∀ d ∈ idFunctions,
        String.ofList f.1 = d.1 ∨ String.ofList f.1 = "az." ++ d.1 →
        ∃ vs ps, Expr.vals P.addLineNumbers es = .ok vs ∧ idParams d.1 vs = some ps ∧
          v.at? (.key s :: .key n :: π) = some (.dict [("function", .dict [("type", .str d.2),
            ("parameters", .dict ps)])]) := by
  obtain ⟨t, p, h1, h2, h3⟩ := known_call h
  refine ⟨t, p, h1, h2, fun {s n π f es} ha d hd hf => ?_⟩
  have key : ∀ sig ∈ signatures, sig.ns = "az" → sig.name = d.1 → sig.type = d.2 →
      (∀ vs, sig.report vs ≠ .refused → ∃ qs ps, sig.report vs = .params qs ∧ idParams d.1 vs = some ps ∧
        qs.map (fun p => (p.1, p.2.val vs)) = ps) →
      ∃ vs ps, Expr.vals P.addLineNumbers es = .ok vs ∧ idParams d.1 vs = some ps ∧
          v.at? (.key s :: .key n :: π) = some (.dict [("function", .dict [("type", .str d.2),
            ("parameters", .dict ps)])]) := by
    intro sig hs hns hname hty hrep
    obtain ⟨vs, hvs, hr, hp⟩ := h3 ha sig hs (by
      simp only [Signature.names, List.mem_cons, List.not_mem_nil, or_false, hns, hname]
      rcases hf with hf | hf
      · exact .inl hf
      · exact .inr (by rw [hf]; simp [String.append_assoc]))
    obtain ⟨qs, ps, hq, hps, he⟩ := hrep vs hr
    exact ⟨vs, ps, hvs, hps, by rw [hp qs hq, he, hty]⟩
  simp only [idFunctions, List.mem_cons, List.not_mem_nil, or_false] at hd
  rcases hd with rfl | rfl | rfl | rfl | rfl
  · refine key ⟨"az", "resourceId", "resource_id", Signature.resourceId⟩ (by simp [signatures]) rfl rfl rfl fun vs hnr => ?_
    rcases vs with _ | ⟨a, _ | ⟨b, _ | ⟨c, _ | ⟨d, _ | ⟨e, vs⟩⟩⟩⟩⟩
    · exact absurd rfl hnr
    · exact absurd rfl hnr
    · exact ⟨_, _, rfl, rfl, rfl⟩
    · exact ⟨_, _, rfl, rfl, rfl⟩
    · exact ⟨_, _, rfl, rfl, rfl⟩
    · refine ⟨_, _, by simp [Signature.resourceId]; rfl, rfl, ?_⟩
      have hre := rest_numbered "resource_name_" 1 [a, b, c] (d :: e :: vs)
      simp only [List.length_cons, List.length_nil, List.cons_append, List.nil_append, Nat.zero_add,
        Nat.reduceAdd] at hre
      simp only [List.map_cons, List.map_append, List.map_nil]
      rw [hre]
      simp [Src.val]
  · refine key ⟨"az", "subscriptionResourceId", "subscription_resource_id", Signature.subscriptionResourceId⟩
      (by simp [signatures]) rfl rfl rfl fun vs hnr => ?_
    rcases vs with _ | ⟨a, _ | ⟨b, _ | ⟨c, _ | ⟨d, vs⟩⟩⟩⟩
    · exact absurd rfl hnr
    · exact absurd rfl hnr
    · exact ⟨_, _, rfl, rfl, rfl⟩
    · exact ⟨_, _, rfl, rfl, rfl⟩
    · exact ⟨_, _, rfl, rfl, rfl⟩
  · refine key ⟨"az", "tenantResourceId", "tenant_resource_id", Signature.someOf 2 ["resource_type", "resource_name_1", "resource_name_2"]⟩
      (by simp [signatures]) rfl rfl rfl fun vs hnr => ?_
    rcases vs with _ | ⟨a, _ | ⟨b, _ | ⟨c, vs⟩⟩⟩
    · exact absurd rfl hnr
    · exact absurd rfl hnr
    · exact ⟨_, _, rfl, rfl, rfl⟩
    · exact ⟨_, _, rfl, rfl, by simp [Signature.given, Src.val]⟩
  · refine key ⟨"az", "managementGroupResourceId", "management_group_resource_id", Signature.someOf 2 ["resource_type", "resource_name_1", "resource_name_2"]⟩
      (by simp [signatures]) rfl rfl rfl fun vs hnr => ?_
    rcases vs with _ | ⟨a, _ | ⟨b, _ | ⟨c, vs⟩⟩⟩
    · exact absurd rfl hnr
    · exact absurd rfl hnr
    · exact ⟨_, _, rfl, rfl, rfl⟩
    · exact ⟨_, _, rfl, rfl, by simp [Signature.given, Src.val]⟩
  · refine key ⟨"az", "extensionResourceId", "extension_resource_id", Signature.someOf 3 ["resource_id", "resource_type", "resource_name_1", "resource_name_2"]⟩
      (by simp [signatures]) rfl rfl rfl fun vs hnr => ?_
    rcases vs with _ | ⟨a, _ | ⟨b, _ | ⟨c, _ | ⟨d, vs⟩⟩⟩⟩
    · exact absurd rfl hnr
    · exact absurd rfl hnr
    · exact absurd rfl hnr
    · exact ⟨_, _, rfl, rfl, rfl⟩
    · exact ⟨_, _, rfl, rfl, by simp [Signature.given, Src.val]⟩

/-- **C50, partial.** `resourceId` with five or more arguments reports subscription, resource group,
type and all names; with two to four arguments the roles follow from the number of arguments.
Missing: four arguments are always read as group, type and two names, even if they are a type and
three names; the other functions of this kind report at most two names (see below). -/
theorem C50_resource_id_partial {P : Parser} {text path v} (h : P.parse text path = .ok v) :
    ∃ t p, chosenText text path = .ok t ∧ Spells t p ∧
      ∀ {s n π f es}, p.At s n π (.expr (.call f es)) →
        String.ofList f.1 = "resourceId" ∨ String.ofList f.1 = "az.resourceId" →
        ∃ vs d, Expr.vals P.addLineNumbers es = .ok vs ∧
          v.at? (.key s :: .key n :: π) = some (.dict [("function", .dict [("type", .str "resource_id"),
            ("parameters", .dict d)])]) ∧
          (match vs with
          | [] | [_] => False
          | [ty, a] => d = [("resource_type", ty), ("resource_name_1", a), ("resource_name_2", .none),
              ("resource_group_name", .none), ("subscription_id", .none)]
          | [ty, a, b] => d = [("resource_type", ty), ("resource_name_1", a), ("resource_name_2", b),
              ("resource_group_name", .none), ("subscription_id", .none)]
          | [g, ty, a, b] => d = [("resource_type", ty), ("resource_name_1", a), ("resource_name_2", b),
              ("resource_group_name", g), ("subscription_id", .none)]
          | sub :: g :: ty :: names => d = ("resource_type", ty) :: numbered "resource_name_" 1 names ++
              [("resource_group_name", g), ("subscription_id", sub)]) := by
  obtain ⟨t, p, h1, h2, h3⟩ := parse_at h
  refine ⟨t, p, h1, h2, fun {s n π f es} ha hf => ?_⟩
  obtain ⟨y, hy, hat⟩ := h3 ha
  obtain ⟨vs, data, hvs, hd, rfl⟩ := call_at hy
  have hmem : (⟨"az", "resourceId", "resource_id", Signature.resourceId⟩ : Signature) ∈ signatures := by
    simp [signatures]
  have hn : String.ofList f.1 ∈ Signature.names ⟨"az", "resourceId", "resource_id", Signature.resourceId⟩ := by
    simp only [Signature.names, List.mem_cons, List.not_mem_nil, or_false]
    rcases hf with hf | hf
    · exact .inl hf
    · refine .inr ?_
      rw [hf]; decide
  have hnr := funVal_not_refused hd hmem hn
  have hk := fun ps => funVal_known hd hmem hn (ps := ps)
  rcases vs with _ | ⟨a, _ | ⟨b, _ | ⟨c, _ | ⟨d, _ | ⟨e, vs⟩⟩⟩⟩⟩
  · exact absurd rfl hnr
  · exact absurd rfl hnr
  · exact ⟨_, _, hvs, hat.trans (by rw [hk _ rfl]; rfl), rfl⟩
  · exact ⟨_, _, hvs, hat.trans (by rw [hk _ rfl]; rfl), rfl⟩
  · exact ⟨_, _, hvs, hat.trans (by rw [hk _ rfl]; rfl), rfl⟩
  · refine ⟨_, _, hvs, hat.trans (by rw [hk _ (by simp [Signature.resourceId]; rfl)]), ?_⟩
    have hre := rest_numbered "resource_name_" 1 [a, b, c] (d :: e :: vs)
    simp only [List.length_cons, List.length_nil, List.cons_append, List.nil_append, Nat.zero_add,
      Nat.reduceAdd] at hre
    simp only [List.map_cons, List.map_append, List.map_nil]
    rw [hre]
    simp [Src.val]

/-- **C50 does not hold in general**: a type with three names is reported as a resource group, a
type and two names; `tenantResourceId` drops the third name. -/
theorem C50_counterexample : Parser.parse ⟨false⟩ (some "var v = resourceId('A/b/c/d', 'x', 'y', 'z')\nvar w = tenantResourceId('A/b/c/d', 'x', 'y', 'z')\n") .none =
    .ok (.dict [("globals", .dict [("scope", .dict [("value", .str "resourceGroup")])]),
      ("variables", .dict [
        ("v", .dict [("decorators", .list []), ("value", .dict [("function", .dict [("type", .str "resource_id"),
          ("parameters", .dict [("resource_type", .str "x"), ("resource_name_1", .str "y"), ("resource_name_2", .str "z"),
            ("resource_group_name", .str "A/b/c/d"), ("subscription_id", .none)])])])]),
        ("w", .dict [("decorators", .list []), ("value", .dict [("function", .dict [("type", .str "tenant_resource_id"),
          ("parameters", .dict [("resource_type", .str "A/b/c/d"), ("resource_name_1", .str "x"),
            ("resource_name_2", .str "y")])])])])])]) := eq_of_outIs (by decide +kernel)

/-! ### Decorators -/

/-- the model's table of decorators agrees with the specification -/
theorem decoVal {d : String} {arg : Option Val} {y : Val} (h : DecoVal d arg y) :
    Decorators.getDecorator d d arg.toList = .ok y := by
  cases h with
  | @carrier n t a hn hd =>
    have key : ∀ p ∈ carriers, ∀ d ∈ decoNames p.1, ∃ g : Decorators.DecoDef, Decorators.DECORATORS.lookup d = some g ∧
        ∀ n a, g n [a] = .ok (.dict [("type", .str p.2), ("argument", a)]) := by
      simp only [carriers, decoNames, List.forall_mem_cons, List.not_mem_nil, false_implies, implies_true, and_true]
      repeat' apply And.intro
      all_goals exact ⟨_, rfl, fun _ _ => rfl⟩
    obtain ⟨g, h1, h2⟩ := key _ hn d hd
    unfold Decorators.getDecorator
    rw [h1]; exact h2 _ _
  | @flag n arg hn hd =>
    have key : ∀ p ∈ flags, ∀ d ∈ decoNames p, ∃ g : Decorators.DecoDef, Decorators.DECORATORS.lookup d = some g ∧
        ∀ n a, g n a = .ok (.dict [("type", .str p)]) := by
      simp only [flags, decoNames, List.forall_mem_cons, List.not_mem_nil, false_implies, implies_true, and_true]
      repeat' apply And.intro
      all_goals exact ⟨_, rfl, fun _ _ => rfl⟩
    obtain ⟨g, h1, h2⟩ := key _ hn d hd
    unfold Decorators.getDecorator
    rw [h1]; exact h2 _ _
  | @minValue a hd hna =>
    simp only [decoNames, List.mem_cons, List.not_mem_nil, or_false] at hd
    have : Decorators.DECORATORS.lookup d = some Decorators.deco_min_val := by rcases hd with rfl | rfl <;> rfl
    unfold Decorators.getDecorator
    rw [this]
    cases a <;> first | rfl | exact absurd rfl (hna _)
  | @minNegative i hd =>
    simp only [decoNames, List.mem_cons, List.not_mem_nil, or_false] at hd
    have : Decorators.DECORATORS.lookup d = some Decorators.deco_min_val := by rcases hd with rfl | rfl <;> rfl
    unfold Decorators.getDecorator
    rw [this]
    simp [Decorators.deco_min_val, Decorators.minValArg, opVal, Val.getOrEmpty, Val.get, Val.item, dGet, bind,
      Except.bind, Val.eqStr, mulNegOne, Except.map, Decorators.ddata]
  | @minNegBool b hd =>
    simp only [decoNames, List.mem_cons, List.not_mem_nil, or_false] at hd
    have : Decorators.DECORATORS.lookup d = some Decorators.deco_min_val := by rcases hd with rfl | rfl <;> rfl
    unfold Decorators.getDecorator
    rw [this]
    simp [Decorators.deco_min_val, Decorators.minValArg, opVal, Val.getOrEmpty, Val.get, Val.item, dGet, bind,
      Except.bind, Val.eqStr, mulNegOne, Except.map, Decorators.ddata]
  | @minNegText a s hd ha =>
    simp only [decoNames, List.mem_cons, List.not_mem_nil, or_false] at hd
    have : Decorators.DECORATORS.lookup d = some Decorators.deco_min_val := by rcases hd with rfl | rfl <;> rfl
    unfold Decorators.getDecorator
    rw [this]
    rcases ha with rfl | rfl <;>
      simp [Decorators.deco_min_val, Decorators.minValArg, opVal, Val.getOrEmpty, Val.get, Val.item, dGet, bind,
        Except.bind, Val.eqStr, mulNegOne, Except.map, Decorators.ddata]
  | @maxBool b hd =>
    simp only [decoNames, List.mem_cons, List.not_mem_nil, or_false] at hd
    have : Decorators.DECORATORS.lookup d = some Decorators.deco_max_val := by rcases hd with rfl | rfl <;> rfl
    unfold Decorators.getDecorator
    rw [this]
    simp [Decorators.deco_max_val, pyInt, Except.map, Decorators.ddata]
  | @maxText n hd hn =>
    simp only [decoNames, List.mem_cons, List.not_mem_nil, or_false] at hd
    have : Decorators.DECORATORS.lookup d = some Decorators.deco_max_val := by rcases hd with rfl | rfl <;> rfl
    unfold Decorators.getDecorator
    rw [this]
    simp [Decorators.deco_max_val, pyInt, Except.map, Decorators.ddata, intOfStr_digits, hn]
  | @maxValue i hd =>
    simp only [decoNames, List.mem_cons, List.not_mem_nil, or_false] at hd
    have : Decorators.DECORATORS.lookup d = some Decorators.deco_max_val := by rcases hd with rfl | rfl <;> rfl
    unfold Decorators.getDecorator
    rw [this]
    simp [Decorators.deco_max_val, pyInt, Except.map, Decorators.ddata]
  | unknown hu =>
    have : Decorators.DECORATORS.lookup d = .none := by
      have hk : ∀ e ∈ Decorators.DECORATORS, ∃ n ∈ knownDecos, e.1 ∈ decoNames n := by decide +kernel
      rw [List.lookup_eq_none_iff]
      intro e he
      obtain ⟨n, hn, hen⟩ := hk e he
      simp only [bne_iff_ne]
      rintro rfl
      exact hu n hn hen
    unfold Decorators.getDecorator
    rw [this]; rfl
  | unknownBare hu =>
    have : Decorators.DECORATORS.lookup d = .none := by
      have hk : ∀ e ∈ Decorators.DECORATORS, ∃ n ∈ knownDecos, e.1 ∈ decoNames n := by decide +kernel
      rw [List.lookup_eq_none_iff]
      intro e he
      obtain ⟨n, hn, hen⟩ := hk e he
      simp only [bne_iff_ne]
      rintro rfl
      exact hu n hn hen
    unfold Decorators.getDecorator
    rw [this]; rfl

/-- what is reported about a decorator without argument -/
theorem deco_at_none {ln : Bool} {d : DecoName} {y z : Val} (h : Deco.val ln ⟨d, .none⟩ = .ok y)
    (hz : DecoVal (String.ofList d.1) .none z) : y = z := by
  unfold Deco.val at h
  simp only [bind, Except.bind] at h
  have h1 := inRule_ok h
  have := decoVal hz
  rw [txt] at h1
  simp only [Option.toList] at this
  rw [this] at h1
  cases h1; rfl

/-- what is reported about a decorator with an argument -/
theorem deco_at_some {ln : Bool} {d : DecoName} {e : Expr} {y : Val} (h : Deco.val ln ⟨d, some e⟩ = .ok y) :
    ∃ a, e.val ln = .ok a ∧ ∀ z, DecoVal (String.ofList d.1) (some a) z → y = z := by
  unfold Deco.val at h
  simp only at h
  obtain ⟨a, ha, h⟩ := bind_ok' h
  refine ⟨a, ha, fun z hz => ?_⟩
  have h1 := inRule_ok h
  have := decoVal hz
  rw [txt] at h1
  simp only [Option.toList] at this
  rw [this] at h1
  cases h1; rfl

/-- **C28.** An unknown decorator is represented by its name and its argument, if it has one. -/
theorem C28_unknown_decorators {P : Parser} {text path v} (h : P.parse text path = .ok v) :
    ∃ t p, chosenText text path = .ok t ∧ Spells t p ∧
      (∀ {s n π d}, p.At s n π (.deco ⟨d, .none⟩) → (∀ k ∈ knownDecos, String.ofList d.1 ∉ decoNames k) →
        v.at? (.key s :: .key n :: π) = some (.dict [("type", .str (String.ofList d.1))])) ∧
      (∀ {s n π d e}, p.At s n π (.deco ⟨d, some e⟩) → (∀ k ∈ knownDecos, String.ofList d.1 ∉ decoNames k) →
        ∃ a, e.val P.addLineNumbers = .ok a ∧
          v.at? (.key s :: .key n :: π) = some (.dict [("type", .str (String.ofList d.1)), ("argument", a)])) := by
  obtain ⟨t, p, h1, h2, h3⟩ := parse_at h
  refine ⟨t, p, h1, h2, fun ha hu => ?_, fun ha hu => ?_⟩
  · obtain ⟨y, hy, hat⟩ := h3 ha
    rw [hat, deco_at_none (ln := P.addLineNumbers) hy (.unknownBare hu)]
  · obtain ⟨y, hy, hat⟩ := h3 ha
    obtain ⟨a, ha, hz⟩ := deco_at_some hy
    exact ⟨a, ha, by rw [hat, hz _ (.unknown hu)]⟩

/-- the decorators written before a declaration -/
def Decl.decos : Decl → List Deco
  | .param ds _ _ _ | .var ds _ _ _ | .output ds _ _ _ | .resource ds _ _ _ _ | .module ds _ _ _
  | .typ ds _ _ _ | .func ds _ _ _ _ => ds
  | _ => []

/-- declarations that can have decorators -/
def Decl.decorated : Decl → Bool
  | .param .. | .var .. | .output .. | .resource .. | .module .. | .typ .. | .func .. => true
  | _ => false

/-- **C32.** The `decorators` of a parameter, variable, output, resource, module, type or function
are exactly those written before it, in order; none if there are none. -/
theorem C32_decorators {P : Parser} {text path v} (h : P.parse text path = .ok v) :
    ∃ t p, chosenText text path = .ok t ∧ Spells t p ∧
      ∀ {s n l d}, Reported p s n l d → d.decorated = true →
        ∃ vs, v.at? [.key s, .key n, .key "decorators"] = some (.list vs) ∧ vs.length = d.decos.length ∧
          ∀ (i : Nat) x, d.decos[i]? = some x → ∃ y, x.val P.addLineNumbers = .ok y ∧ vs[i]? = some y := by
  obtain ⟨t, p, h1, h2, hv⟩ := parse_ok h
  refine ⟨t, p, h1, h2, fun {s n l d} hr hd => ?_⟩
  rw [Program.val] at hv
  obtain ⟨os, hos, hv⟩ := bind_ok' hv
  cases hv
  obtain ⟨o, attrs, ho, hown, hat⟩ := reported_entry (contribs_of hos) hr
  have key : ∃ vs, decoVals P.addLineNumbers d.decos = .ok vs ∧ dGet "decorators" attrs = some (.list vs) := by
    cases d with
    | scope | importNs | importFrom | extension | metadata => simp [Decl.decorated] at hd
    | param | var | output | module | typ | func | resource =>
      rw [Decl.out] at ho
      obtain ⟨vs, hvs, ho⟩ := bind_ok' ho
      refine ⟨vs, hvs, ?_⟩
      repeat (first
        | (cases ho; cases hown; rfl)
        | (obtain ⟨_, _, ho⟩ := bind_ok' ho; try simp only at ho))
  obtain ⟨vs, hvs, hg⟩ := key
  obtain ⟨hl, hi⟩ := decoVals_getElem hvs
  refine ⟨vs, ?_, hl.symm, hi⟩
  rw [show [PStep.key s, .key n, .key "decorators"] = [.key s, .key n] ++ [.key "decorators"] from rfl,
    Val.at?_append, hat]
  simp [Val.at?, Val.step?, hg]

/-- **C32.** Known decorators with an argument report it as it is; `export`, `sealed` and `secure`
only their name. -/
theorem C32_known {P : Parser} {text path v} (h : P.parse text path = .ok v) :
    ∃ t p, chosenText text path = .ok t ∧ Spells t p ∧
      (∀ {s n π d e k ty}, p.At s n π (.deco ⟨d, some e⟩) → (k, ty) ∈ carriers → String.ofList d.1 ∈ decoNames k →
        ∃ a, e.val P.addLineNumbers = .ok a ∧
          v.at? (.key s :: .key n :: π) = some (.dict [("type", .str ty), ("argument", a)])) ∧
      (∀ {s n π d k}, p.At s n π (.deco ⟨d, .none⟩) → k ∈ flags → String.ofList d.1 ∈ decoNames k →
        v.at? (.key s :: .key n :: π) = some (.dict [("type", .str k)])) := by
  obtain ⟨t, p, h1, h2, h3⟩ := parse_at h
  refine ⟨t, p, h1, h2, fun ha hk hd => ?_, fun ha hk hd => ?_⟩
  · obtain ⟨y, hy, hat⟩ := h3 ha
    obtain ⟨a, ha, hz⟩ := deco_at_some hy
    exact ⟨a, ha, by rw [hat, hz _ (.carrier hk hd)]⟩
  · obtain ⟨y, hy, hat⟩ := h3 ha
    rw [hat, deco_at_none (ln := P.addLineNumbers) hy (.flag hk hd)]

/-- **C33.** `@minValue(n)`, `@minValue(-n)` and `@maxValue(n)` report the integers. -/
theorem C33_min_max {P : Parser} {text path v} (h : P.parse text path = .ok v) :
    ∃ t p, chosenText text path = .ok t ∧ Spells t p ∧
      (∀ {s n π d i}, p.At s n π (.deco ⟨d, some (.int i)⟩) → String.ofList d.1 ∈ decoNames "minValue" →
        v.at? (.key s :: .key n :: π) = some (.dict [("type", .str "min_value"), ("argument", .int (decimal i.1))])) ∧
      (∀ {s n π d i}, p.At s n π (.deco ⟨d, some (.minus (.int i))⟩) → String.ofList d.1 ∈ decoNames "minValue" →
        v.at? (.key s :: .key n :: π) = some (.dict [("type", .str "min_value"), ("argument", .int (-(decimal i.1 : Int)))])) ∧
      (∀ {s n π d i}, p.At s n π (.deco ⟨d, some (.int i)⟩) → String.ofList d.1 ∈ decoNames "maxValue" →
        v.at? (.key s :: .key n :: π) = some (.dict [("type", .str "max_value"), ("argument", .int (decimal i.1))])) := by
  obtain ⟨t, p, h1, h2, h3⟩ := parse_at h
  refine ⟨t, p, h1, h2, fun ha hd => ?_, fun ha hd => ?_, fun ha hd => ?_⟩
  · obtain ⟨y, hy, hat⟩ := h3 ha
    obtain ⟨a, ha, hz⟩ := deco_at_some hy
    rw [Expr.val] at ha
    split at ha <;> cases ha
    rw [hat, hz _ (.minValue hd (by simp))]
  · obtain ⟨y, hy, hat⟩ := h3 ha
    obtain ⟨a, ha, hz⟩ := deco_at_some hy
    rw [Expr.val, Expr.val] at ha
    split at ha
    · cases ha
      rw [hat, hz _ (.minNegative hd)]
    · cases ha
  · obtain ⟨y, hy, hat⟩ := h3 ha
    obtain ⟨a, ha, hz⟩ := deco_at_some hy
    rw [Expr.val] at ha
    split at ha <;> cases ha
    rw [hat, hz _ (.maxValue hd)]

/-- **C33.** Booleans count as `1` and `0`, quoted digits count as the number (`@maxValue` only), and the sign before a
name or a text turns it into an empty text. -/
theorem C33_other {P : Parser} {text path v} (h : P.parse text path = .ok v) :
    ∃ t p, chosenText text path = .ok t ∧ Spells t p ∧
      (∀ {s n π d} {b : Bool}, p.At s n π (.deco ⟨d, some (if b then .tru else .fls)⟩) →
        String.ofList d.1 ∈ decoNames "maxValue" →
        v.at? (.key s :: .key n :: π) = some (.dict [("type", .str "max_value"), ("argument", .int (if b then 1 else 0))])) ∧
      (∀ {s n π d} {i : Digits}, p.At s n π (.deco ⟨d, some (.str i.1)⟩) → String.ofList d.1 ∈ decoNames "maxValue" →
        i.1.length ≤ intMaxStrDigits →
        v.at? (.key s :: .key n :: π) = some (.dict [("type", .str "max_value"), ("argument", .int (decimal i.1))])) ∧
      (∀ {s n π d} {b : Bool}, p.At s n π (.deco ⟨d, some (.minus (if b then .tru else .fls))⟩) →
        String.ofList d.1 ∈ decoNames "minValue" →
        v.at? (.key s :: .key n :: π) = some (.dict [("type", .str "min_value"), ("argument", .int (if b then -1 else 0))])) ∧
      (∀ {s n π d x}, p.At s n π (.deco ⟨d, some (.minus (.ident x))⟩) → String.ofList d.1 ∈ decoNames "minValue" →
        v.at? (.key s :: .key n :: π) = some (.dict [("type", .str "min_value"), ("argument", .str "")])) ∧
      (∀ {s n π d b}, p.At s n π (.deco ⟨d, some (.minus (.str b))⟩) → String.ofList d.1 ∈ decoNames "minValue" →
        v.at? (.key s :: .key n :: π) = some (.dict [("type", .str "min_value"), ("argument", .str "")])) := by
  obtain ⟨t, p, h1, h2, h3⟩ := parse_at h
  refine ⟨t, p, h1, h2, fun {s n π d b} ha hd => ?_, fun ha hd hn => ?_, fun {s n π d b} ha hd => ?_, fun ha hd => ?_,
    fun ha hd => ?_⟩
  · obtain ⟨y, hy, hat⟩ := h3 ha
    obtain ⟨a, ha, hz⟩ := deco_at_some hy
    have : a = .bool b := by cases b <;> (simp [Expr.val] at ha; exact ha.symm)
    subst this
    rw [hat, hz _ (.maxBool hd)]
  · obtain ⟨y, hy, hat⟩ := h3 ha
    obtain ⟨a, ha, hz⟩ := deco_at_some hy
    rw [Expr.val] at ha
    cases ha
    rw [hat, hz _ (.maxText hd hn)]
  · obtain ⟨y, hy, hat⟩ := h3 ha
    obtain ⟨a, ha, hz⟩ := deco_at_some hy
    have : a = opVal "minus" [("integer_value", .bool b)] := by
      cases b <;> (simp [Expr.val, bind, Except.bind] at ha; exact ha.symm)
    subst this
    rw [hat, hz _ (.minNegBool hd)]
  · obtain ⟨y, hy, hat⟩ := h3 ha
    obtain ⟨a, ha, hz⟩ := deco_at_some hy
    rw [Expr.val, Expr.val] at ha
    cases ha
    rw [hat, hz _ (.minNegText hd (.inr rfl))]
  · obtain ⟨y, hy, hat⟩ := h3 ha
    obtain ⟨a, ha, hz⟩ := deco_at_some hy
    rw [Expr.val, Expr.val] at ha
    cases ha
    rw [hat, hz _ (.minNegText hd (.inl rfl))]

/-! ### Concrete cases -/

/-- functions with and without prefix, unknown functions, variadic functions -/
example : Parser.parse ⟨false⟩ (some "var v = [sys.min(1, 2, 3), az.foo(), foo(a), union(a, b), format('x')]\n") .none =
    .ok (.dict [("globals", .dict [("scope", .dict [("value", .str "resourceGroup")])]),
      ("variables", .dict [("v", .dict [("decorators", .list []), ("value", .list [
        .dict [("function", .dict [("type", .str "min"), ("parameters", .dict [("arg_1", .int 1), ("arg_2", .int 2),
          ("arg_3", .int 3)])])],
        .dict [("function", .dict [("type", .str "az.foo"), ("parameters", .dict [])])],
        .dict [("function", .dict [("type", .str "foo"), ("parameters", .dict [("arg_1", .elem "a")])])],
        .dict [("function", .dict [("type", .str "union"), ("parameters", .dict [("arg_1", .elem "a"),
          ("arg_2", .elem "b")])])],
        .dict [("function", .dict [("type", .str "format"), ("parameters", .dict [("format_string", .str "x")])])]])])])]) :=
  eq_of_outIs (by decide +kernel)

/-- too few arguments -/
example : Parser.parse ⟨false⟩ (some "var v = contains(a)\n") .none =
    .error (.visitError "function" (.valueError "")) := eq_of_errIs (by decide +kernel)

/-- decorators -/
example : Parser.parse ⟨false⟩ (some "@minValue(-5)\n@sys.maxValue(7)\n@secure()\n@foo()\nparam p int\n") .none =
    .ok (.dict [("globals", .dict [("scope", .dict [("value", .str "resourceGroup")])]),
      ("parameters", .dict [("p", .dict [("decorators", .list [
        .dict [("type", .str "min_value"), ("argument", .int (-5))],
        .dict [("type", .str "max_value"), ("argument", .int 7)],
        .dict [("type", .str "secure")], .dict [("type", .str "foo")]]),
        ("type", .str "int"), ("default", .none)])])]) := eq_of_outIs (by decide +kernel)

/-- bounds that are not integers -/
example : Parser.parse ⟨false⟩
    (some "@maxValue(true)\n@maxValue('012')\n@minValue(-true)\n@minValue(-x)\n@minValue(-'x')\nparam p int\n") .none =
    .ok (.dict [("globals", .dict [("scope", .dict [("value", .str "resourceGroup")])]),
      ("parameters", .dict [("p", .dict [("decorators", .list [
        .dict [("type", .str "max_value"), ("argument", .int 1)],
        .dict [("type", .str "max_value"), ("argument", .int 12)],
        .dict [("type", .str "min_value"), ("argument", .int (-1))],
        .dict [("type", .str "min_value"), ("argument", .str "")],
        .dict [("type", .str "min_value"), ("argument", .str "")]]),
        ("type", .str "int"), ("default", .none)])])]) := eq_of_outIs (by decide +kernel)

end Pycep
