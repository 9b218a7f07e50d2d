import Verif.Props.Api
import Verif.Proofs.SemErr
import Verif.Session
/-
C01-C04, C06: arguments, validity gate, files, sessions, parse against create_tree.
-/
namespace Pycep

/-- `create_tree` on `_create_tree` -/
theorem createTree_error {P : Parser} {text path e} :
    P.createTree text path = .error e ↔ createTree' text path = .error e := by
  unfold Parser.createTree
  cases createTree' text path <;> simp [Except.map]

theorem parse_error_of_tree {P : Parser} {text path e} (h : createTree' text path = .error e) :
    P.parse text path = .error e := by rw [parse_eq, h]; rfl

/-! ### C01 -/

/-- the message for two sources -/
def msgBoth : String := "Either 'text' or 'file_path' can be set"
/-- the message for no source -/
def msgNone : String := "Either 'text' or 'file_path' has to be set"

theorem parse_typeError {P : Parser} {text path m} :
    P.parse text path = .error (.typeError m) ↔ chosenText text path = .error (.typeError m) := by
  rcases parse_cases P text path with ⟨e, h1, h2⟩ | ⟨t, m', h1, _, h3, _⟩ | ⟨t, h1, _, h3⟩ | ⟨t, p, h1, _, h3, h4⟩
  · rw [h1, h2]; simp
  · rw [h1, h3]; simp
  · rw [h1, h3]; simp
  · rw [h1, h4]
    unfold liftV
    split <;> simp

theorem createTree_typeError {P : Parser} {text path m} :
    P.createTree text path = .error (.typeError m) ↔ chosenText text path = .error (.typeError m) := by
  rw [createTree_error]
  rcases createTree'_cases text path with ⟨e, h1, h2⟩ | ⟨t, m', h1, _, h3, _⟩ | ⟨t, h1, _, _, h3⟩ |
    ⟨t, _, p, h1, _, _, _, _, h4⟩
  · rw [h1, h2]; simp
  · rw [h1, h3]; simp
  · rw [h1, h3]; simp
  · rw [h1, h4]; simp

theorem chosenText_typeError (text path m) : chosenText text path = .error (.typeError m) ↔
    (m = msgBoth ∧ (∃ t, text = some t ∧ t ≠ "") ∧ path ≠ .none) ∨
    (m = msgNone ∧ (∀ t, text = some t → t = "") ∧ path = .none) := by
  have hb : msgBoth ≠ msgNone := by decide
  rcases chosenText_cases text path with ⟨h1, rfl, h⟩ | ⟨h1, h2, h⟩ | ⟨t, rfl, h1, rfl, h⟩ | ⟨p, t, h1, rfl, _, h⟩ |
    ⟨p, t, h1, rfl, _, h⟩
  · rw [h]
    have h1' : ∀ t, text = some t → t = "" := by
      rcases h1 with rfl | rfl <;> simp
    constructor
    · intro e; simp only [Except.error.injEq, ApiErr.typeError.injEq] at e
      exact .inr ⟨e.symm, h1', rfl⟩
    · rintro (⟨_, _, hn⟩ | ⟨rfl, _⟩)
      · exact (hn rfl).elim
      · rfl
  · rw [h]
    have h1' : ∃ t, text = some t ∧ t ≠ "" := by
      unfold NoText at h1
      cases text with
      | none => simp at h1
      | some t => exact ⟨t, rfl, fun e => h1 (.inr (by rw [e]))⟩
    constructor
    · intro e; simp only [Except.error.injEq, ApiErr.typeError.injEq] at e
      refine .inl ⟨e.symm, h1', ?_⟩
      rintro rfl; simp at h2
    · rintro (⟨rfl, _⟩ | ⟨_, hn, _⟩)
      · rfl
      · obtain ⟨t, ht, hne⟩ := h1'
        exact (hne (hn t ht)).elim
  · rw [h]
    constructor
    · intro e; cases e
    · rintro (⟨_, _, hn⟩ | ⟨_, hn, _⟩)
      · exact (hn rfl).elim
      · exact (h1 (hn t rfl)).elim
  · rw [h]
    constructor
    · intro e; cases e
    · rintro (⟨_, ⟨s, hs, hne⟩, _⟩ | ⟨_, _, hn⟩)
      · rcases h1 with rfl | rfl
        · cases hs
        · cases hs; exact (hne rfl).elim
      · cases hn
  · rw [h]
    constructor
    · intro e; cases e
    · rintro (⟨_, ⟨s, hs, hne⟩, _⟩ | ⟨_, _, hn⟩)
      · rcases h1 with rfl | rfl
        · cases hs
        · cases hs; exact (hne rfl).elim
      · cases hn

/-- **C01.** A TypeError is raised exactly when a non-empty text and a path are given (first
message), or neither (second message; an empty text does not count); by both methods. -/
theorem C01_exactly_one_source (P : Parser) (text : Option String) (path : Option PathArg) (m : String) :
    (P.parse text path = .error (.typeError m) ↔
      (m = msgBoth ∧ (∃ t, text = some t ∧ t ≠ "") ∧ path ≠ .none) ∨
      (m = msgNone ∧ (∀ t, text = some t → t = "") ∧ path = .none)) ∧
    (P.createTree text path = .error (.typeError m) ↔
      (m = msgBoth ∧ (∃ t, text = some t ∧ t ≠ "") ∧ path ≠ .none) ∨
      (m = msgNone ∧ (∀ t, text = some t → t = "") ∧ path = .none)) :=
  ⟨parse_typeError.trans (chosenText_typeError ..), createTree_typeError.trans (chosenText_typeError ..)⟩

example : (Parser.mk true).parse (some "") .none = .error (.typeError msgNone) :=
  (C01_exactly_one_source _ _ _ _).1.mpr (.inr ⟨rfl, by simp, rfl⟩)
example : (Parser.mk true).parse (some "var x = 1") (some ⟨"a.bicep", .ok "var y = 2"⟩) =
    .error (.typeError msgBoth) :=
  (C01_exactly_one_source _ _ _ _).1.mpr (.inl ⟨rfl, ⟨_, rfl, by decide⟩, by simp⟩)

/-! ### C02 -/

/-- `Occ x n`: scanning `x` from the left finds `n` non-overlapping occurrences of `'''`. -/
inductive Occ : List Char → Nat → Prop where
  | nil : Occ [] 0
  | hit {x n} : Occ x n → Occ ('\'' :: '\'' :: '\'' :: x) (n + 1)
  | miss {c x n} : (∀ y, c :: x ≠ '\'' :: '\'' :: '\'' :: y) → Occ x n → Occ (c :: x) n

theorem occ_unique {x n m} (h : Occ x n) (h' : Occ x m) : n = m := by
  induction h generalizing m with
  | nil => cases h'; rfl
  | hit _ ih =>
    cases h' with
    | hit h' => rw [ih h']
    | miss h1 _ => exact (h1 _ rfl).elim
  | miss h1 _ ih =>
    cases h' with
    | hit h' => exact (h1 _ rfl).elim
    | miss _ h' => exact ih h'

theorem occ_countSub : ∀ (n : Nat) (x : List Char), x.length ≤ n → Occ x (countSub ['\'', '\'', '\''] n x) := by
  intro n
  induction n with
  | zero =>
    intro x hx
    have : x = [] := List.length_eq_zero_iff.mp (by omega)
    subst this; exact .nil
  | succ n ih =>
    intro x hx
    cases x with
    | nil => exact .nil
    | cons c cs =>
      unfold countSub
      split
      · rename_i hp
        obtain ⟨y, hy⟩ := List.isPrefixOf_iff_prefix.mp hp
        rw [← hy] at hx ⊢
        simp only [List.cons_append, List.nil_append, List.length_cons, List.length_nil] at hx ⊢
        rw [Nat.add_comm]
        exact .hit (ih y (by omega))
      · rename_i hp
        refine .miss ?_ (ih cs (by simpa using hx))
        intro y hy
        apply hp
        rw [hy]
        exact List.isPrefixOf_iff_prefix.mpr ⟨y, rfl⟩

theorem isValid_iff {t : String} {n : Nat} (h : Occ t.toList n) : isValid t = (n % 2 == 0) := by
  unfold isValid
  rw [occ_unique (occ_countSub _ _ (Nat.le_refl _)) h]

/-- what the ValueError of the validity gate says -/
def gateMsg : Option PathArg → String
  | some p => p.name ++ " file content is invalid"
  | .none => "Text is invalid"

/-- **C02.** If the text has an odd number of triple quotes, both methods raise the ValueError of
the gate; if the number is even they never raise a ValueError.  The number always exists. -/
theorem C02_triple_quotes (P : Parser) (text : Option String) (path : Option PathArg) (t : String) (n : Nat)
    (ht : chosenText text path = .ok t) (hn : Occ t.toList n) :
    (n % 2 = 1 → P.parse text path = .error (.valueError (gateMsg path)) ∧
      P.createTree text path = .error (.valueError (gateMsg path))) ∧
    (n % 2 = 0 → ∀ m, P.parse text path ≠ .error (.valueError m) ∧
      P.createTree text path ≠ .error (.valueError m)) := by
  have hv := isValid_iff hn
  have hm : ∀ path : Option PathArg, (match path with | some p => p.name ++ " file content is invalid" | .none => "Text is invalid") = gateMsg path := by
    intro path; cases path <;> rfl
  constructor
  · intro h
    have hv : isValid t = false := by rw [hv, h]; rfl
    have : createTree' text path = .error (.valueError (gateMsg path)) := by
      rw [createTree'_eq, ht]
      simp only [Except.bind, hv, Bool.false_eq_true, if_false]
      cases path <;> rfl
    exact ⟨parse_error_of_tree this, createTree_error.mpr this⟩
  · intro h m
    have hv : isValid t = true := by rw [hv, h]; rfl
    constructor
    · intro hp
      rcases parse_cases P text path with ⟨e, h1, h2⟩ | ⟨t', m', h1, h2, h3, _⟩ | ⟨t', h1, _, h3⟩ | ⟨t', p, h1, _, h3, h4⟩
      · rw [ht] at h1; cases h1
      · rw [ht] at h1; cases h1; rw [hv] at h2; cases h2
      · rw [hp] at h3; cases h3
      · rw [hp] at h4
        unfold liftV at h4
        split at h4 <;> cases h4
    · intro hp
      rw [createTree_error] at hp
      rcases createTree'_cases text path with ⟨e, h1, h2⟩ | ⟨t', m', h1, h2, h3, _⟩ | ⟨t', h1, _, _, h3⟩ |
        ⟨t', _, p, h1, _, _, _, _, h4⟩
      · rw [ht] at h1; cases h1
      · rw [ht] at h1; cases h1; rw [hv] at h2; cases h2
      · rw [hp] at h3; cases h3
      · rw [hp] at h4; cases h4

/-- The number of occurrences always exists, and there is only one. -/
theorem C02_count (x : List Char) : ∃ n, Occ x n ∧ ∀ m, Occ x m → m = n :=
  ⟨_, occ_countSub _ x (Nat.le_refl _), fun _ h => occ_unique h (occ_countSub _ x (Nat.le_refl _))⟩

example : (Parser.mk false).parse (some "var x = '''a") .none = .error (.valueError "Text is invalid") :=
  ((C02_triple_quotes _ _ _ "var x = '''a" 1 rfl (by
    have e : "var x = '''a".toList = ['v', 'a', 'r', ' ', 'x', ' ', '=', ' ', '\'', '\'', '\'', 'a'] := by
      decide +kernel
    rw [e]
    refine .miss ?_ (.miss ?_ (.miss ?_ (.miss ?_ (.miss ?_ (.miss ?_ (.miss ?_ (.miss ?_ (.hit (.miss ?_ .nil))))))))) <;>
      simp)).1 rfl).1

/-! ### C03 -/

/-- the error message of the gate is the only difference between file and text -/
def renameGate (path : PathArg) {α} : Except ApiErr α → Except ApiErr α
  | .error (.valueError m) => if m = "Text is invalid" then
      .error (.valueError (path.name ++ " file content is invalid")) else .error (.valueError m)
  | r => r

/-- **C03.** Reading a text from a file gives what the text itself gives, up to the message of the
gate; no text argument (or an empty one) is needed for a file. -/
theorem C03_file_is_text (P : Parser) (path : PathArg) (t : String) (hc : path.content = .ok t) (hne : t ≠ "")
    (noText : Option String) (hno : noText = .none ∨ noText = some "") :
    P.parse noText (some path) = renameGate path (P.parse (some t) .none) ∧
    P.createTree noText (some path) = renameGate path (P.createTree (some t) .none) := by
  have c1 : chosenText noText (some path) = .ok t := by
    rcases hno with rfl | rfl <;> simp [chosenText, hc]
  have c2 : chosenText (some t) .none = .ok t := by
    unfold chosenText; split <;> simp_all
  have hrt : createTree' noText (some path) = renameGate path (createTree' (some t) .none) := by
    rw [createTree'_eq, createTree'_eq, c1, c2]
    simp only [Except.bind]
    cases hv : isValid t with
    | false => simp [renameGate]
    | true => cases larkParse t <;> simp [renameGate]
  refine ⟨?_, ?_⟩
  · rw [parse_eq, parse_eq, hrt]
    cases h : createTree' (some t) .none with
    | error e =>
      cases e with
      | valueError m => by_cases hm : m = "Text is invalid" <;> simp [renameGate, Except.bind, hm]
      | _ => rfl
    | ok tr =>
      simp only [renameGate, Except.bind, liftV]
      split <;> rfl
  · unfold Parser.createTree
    rw [hrt]
    cases h : createTree' (some t) .none with
    | error e =>
      cases e with
      | valueError m => by_cases hm : m = "Text is invalid" <;> simp [renameGate, Except.map, hm]
      | _ => rfl
    | ok tr => simp only [renameGate, Except.map]

theorem declSyn_ne_nil {d w n} (h : DeclSyn d w n) : w ≠ [] := by
  cases h <;> simp only [ne_eq, List.append_eq_nil_iff, List.cons_ne_nil, and_false, not_false_iff]

/-- **C03, empty files.** A file without content is an empty program. -/
theorem C03_empty_file (P : Parser) (path : PathArg) (hc : path.content = .ok "") :
    P.parse .none (some path) = .ok (.dict [("globals", .dict [("scope", .dict (("value", .str "resourceGroup") ::
      (if P.addLineNumbers then [("__start_line__", .int 0), ("__end_line__", .int 0)] else [])))])]) := by
  rw [parse_eq, createTree'_eq]
  have c1 : chosenText .none (some path) = .ok "" := by simp [chosenText, hc]
  have hv : isValid "" = true := by decide
  have hl : ∃ t, larkParse "" = .ok t ∧ t.core = Program.tree [] := by
    have hp : ∃ t, larkParse "" = .ok t := by
      have : (match larkParse "" with | .ok _ => true | _ => false) = true := by decide +kernel
      cases h : larkParse "" <;> rw [h] at this <;> first | exact ⟨_, rfl⟩ | cases this
    obtain ⟨t, ht⟩ := hp
    obtain ⟨p, ⟨⟨w, hw, hs⟩, _⟩, hc⟩ := larkParse_program ht
    replace hw := hw.tiling
    refine ⟨t, ht, ?_⟩
    have hw' : w = [] := by
      have : ∀ {l x w}, Tiling l x w → x = [] → w = [] := by
        intro l x w h
        induction h with
        | nil => simp
        | skip h _ ih =>
          intro e
          exact (h.ne_nil (List.append_eq_nil_iff.mp e).1).elim
        | tok h1 h2 _ _ =>
          intro e
          exact (h1.ne_nil h2 (List.append_eq_nil_iff.mp e).1).elim
      exact this hw rfl
    subst hw'
    rw [hc]
    have : ∀ {w n}, ProgSyn p w n → w = [] → p = [] := by
      intro w n h
      cases h with
      | nil => simp
      | decl _ hd _ =>
        intro e
        have := (List.append_eq_nil_iff.mp e).2
        subst this
        exfalso
        exact declSyn_ne_nil hd rfl
      | nl _ _ => simp
    rw [this hs rfl]
  obtain ⟨t, ht, hc⟩ := hl
  rw [c1]
  simp only [Except.bind, hv, if_true, ht, bicepToJson_program hc]
  cases hn : P.addLineNumbers <;> rfl

/-! ### C04 -/

/-- the outcome of a call on a newly built parser -/
def Parser.fresh (p : Parser) : Call → Outcome
  | .parse text path => .value (p.parse text path)
  | .createTree text path => .tree (p.createTree text path)

theorem step_fresh (p : Parser) (w : World) (c : Call) : (p.step w c).1 = p.fresh c := by
  cases c with
  | createTree => rfl
  | parse text path =>
    simp only [Parser.step, Parser.parseIn, Parser.fresh, parse_eq]
    cases createTree' text path with
    | error e => rfl
    | ok t =>
      simp only [Except.bind, bicepToJson, newTransformer]
      cases transform p.addLineNumbers t ⟨[], []⟩ with
      | ok r => rfl
      | error e => cases e <;> rfl

/-- **C04.** Whatever happened before (`w`), the outcomes of a sequence of calls on one parser are
those the calls have on newly built parsers. -/
theorem C04_independent_calls (p : Parser) (w : World) (cs : List Call) : p.run w cs = cs.map p.fresh := by
  induction cs generalizing w with
  | nil => rfl
  | cons c cs ih =>
    simp only [Parser.run, List.map_cons]
    rw [← step_fresh p w c]
    simp only [ih]

/-- a session in which imports and child resources of an earlier call could leak -/
example (p : Parser) (w : World) (t : String) :
    p.run w [.parse (some "import 'az'") .none, .createTree (some t) .none, .parse (some "var x = 1") .none] =
      [.value (p.parse (some "import 'az'") .none), .tree (p.createTree (some t) .none),
       .value (p.parse (some "var x = 1") .none)] := C04_independent_calls ..

/-! ### C06 -/

/-- **C06.** `create_tree` fails exactly when `parse` fails before the transformation, with the same
error; whenever `parse` returns, `create_tree` returns; if `create_tree` returns, `parse` returns or
raises VisitError. -/
theorem C06_tree_and_parse (P : Parser) (text : Option String) (path : Option PathArg) :
    (∀ e, P.createTree text path = .error e ↔
      P.parse text path = .error e ∧ ∀ r x, e ≠ .visitError r x) ∧
    (∀ v, P.parse text path = .ok v → ∃ s, P.createTree text path = .ok s) ∧
    (∀ s, P.createTree text path = .ok s → (∃ v, P.parse text path = .ok v) ∨
      (∃ r x, P.parse text path = .error (.visitError r x))) := by
  simp only [createTree_error]
  unfold Parser.createTree
  rw [parse_eq]
  rcases createTree'_cases text path with ⟨e, h1, h2⟩ | ⟨t', m', h1, h2, h3, _⟩ | ⟨t', h1, _, _, h3⟩ |
    ⟨t', tree, p, h1, _, _, _, h2, h4⟩
  · rw [h2]
    simp only [Except.bind, Except.map]
    refine ⟨fun e' => ⟨fun h => ?_, fun h => ?_⟩, fun _ h => (nomatch h), fun _ h => (nomatch h)⟩
    · cases h
      refine ⟨rfl, ?_⟩
      rintro r x rfl
      rcases chosenText_cases text path with ⟨_, _, h⟩ | ⟨_, _, h⟩ | ⟨_, _, _, _, h⟩ | ⟨_, _, _, _, _, h⟩ |
        ⟨_, _, _, _, _, h⟩ <;> rw [h] at h1 <;> cases h1
    · cases h.1; rfl
  · rw [h3]
    simp only [Except.bind, Except.map]
    refine ⟨fun e' => ⟨fun h => ?_, fun h => ?_⟩, fun _ h => (nomatch h), fun _ h => (nomatch h)⟩
    · cases h; exact ⟨rfl, fun _ _ h => nomatch h⟩
    · cases h.1; rfl
  · rw [h3]
    simp only [Except.bind, Except.map]
    refine ⟨fun e' => ⟨fun h => ?_, fun h => ?_⟩, fun _ h => (nomatch h), fun _ h => (nomatch h)⟩
    · cases h; exact ⟨rfl, fun _ _ h => nomatch h⟩
    · cases h.1; rfl
  · rw [h4]
    simp only [Except.bind, Except.map]
    rw [bicepToJson_program h2]
    have hv := Program.eok P.addLineNumbers p
    refine ⟨fun e => ⟨fun h => (nomatch h), fun h => ?_⟩, fun _ _ => ⟨_, rfl⟩, fun _ _ => ?_⟩
    · obtain ⟨h1, h2⟩ := h
      cases hp : p.val P.addLineNumbers with
      | ok v => rw [hp] at h1; cases h1
      | error er =>
        obtain ⟨r, x, rfl, _⟩ := hv er hp
        rw [hp] at h1; cases h1
        exact (h2 _ _ rfl).elim
    · cases hp : p.val P.addLineNumbers with
      | ok v => exact .inl ⟨v, rfl⟩
      | error er =>
        obtain ⟨r, x, rfl, _⟩ := hv er hp
        exact .inr ⟨r, x, rfl⟩

/-! ### C05 -/

/-- **C05.** Every call of `parse` ends in one of the documented ways (and the model, being a total
function, always ends): the LALR driver never gets stuck, its stack of pending reductions never
exceeds the bound, and every node has a method. -/
theorem C05_outcomes (P : Parser) (text : Option String) (path : Option PathArg) :
    (∃ v, P.parse text path = .ok v) ∨ (∃ m, P.parse text path = .error (.typeError m)) ∨
    (∃ m, P.parse text path = .error (.valueError m)) ∨ P.parse text path = .error .io ∨
    P.parse text path = .error .unexpectedInput ∨
    (∃ r x, P.parse text path = .error (.visitError r x)) := by
  rcases parse_cases P text path with ⟨e, h1, h2⟩ | ⟨t, m, _, _, h3, _⟩ | ⟨t, _, _, h3⟩ | ⟨t, p, h1, _, h3, h4⟩
  · rw [h2]
    rcases chosenText_cases text path with ⟨_, _, h⟩ | ⟨_, _, h⟩ | ⟨_, _, _, _, h⟩ | ⟨_, _, _, _, _, h⟩ |
        ⟨_, _, _, _, _, h⟩ <;> rw [h] at h1 <;> cases h1 <;> simp
  · rw [h3]; simp
  · rw [h3]; simp
  · rw [h4]
    cases hp : p.val P.addLineNumbers with
    | ok v => simp [liftV]
    | error er =>
      obtain ⟨r, x, rfl, _⟩ := Program.eok P.addLineNumbers p er hp
      simp [liftV]

/-- **C05, driver and transformer.** For every text: the driver reaches a decision (no missing goto,
no empty stack, no endless chain of reductions), and the transformer has a method for every node of
every tree it is given. -/
theorem C05_no_internal_error (text : String) :
    larkParse text ≠ .stuck ∧ larkParse text ≠ .fuel ∧
    ∀ t, larkParse text = .ok t → ∀ ln r, bicepToJson ln t ≠ .error (.noCallback r) := by
  refine ⟨(larkParse_sound text).1, (larkParse_sound text).2.1, ?_⟩
  intro t ht ln r h
  obtain ⟨p, _, hc⟩ := larkParse_program ht
  rw [bicepToJson_program hc] at h
  obtain ⟨_, _, h', _⟩ := Program.eok ln p _ h
  cases h'

/-! ### C07 -/

/-- **C07.** If `parse` raises VisitError, the failing construct is a target scope, a resource type,
a module path, a resource, a decorator, a function call, a loop or an integer literal. -/
theorem C07_failing_constructs (P : Parser) (text : Option String) (path : Option PathArg) (r : String) (x : PyErr)
    (h : P.parse text path = .error (.visitError r x)) :
    r ∈ ["scope", "type_api_pair", "module_path", "resource", "decorator", "function", "loop", "int_type"] := by
  obtain ⟨t, p, _, _, hv⟩ := parse_visitError h
  obtain ⟨r', x', e, hr⟩ := Program.eok _ p _ hv
  cases e
  exact hr

end Pycep
