import Verif.Props.Funcs
import Verif.Props.Modules
import Verif.Spec.Possible
import Verif.Proofs.SemErr
import Verif.Proofs.Possible
import Verif.Proofs.Examples
import Mathlib.Data.List.TakeWhile
/-
C83: exactly which documents fail after their syntax has been accepted.
-/
namespace Pycep

/-! ### What can be wrong -/

/-- digits with at most one underscore between two of them, `n` digits in all -/
inductive Underscored : List Char → Nat → Prop where
  | one {c d} : digitVal c = some d → Underscored [c] 1
  | more {c d cs n} : digitVal c = some d → Underscored cs n → Underscored (c :: cs) (n + 1)
  | sep {c d cs n} : digitVal c = some d → Underscored cs n → Underscored (c :: '_' :: cs) (n + 1)

/-- a text Python's `int` accepts: blanks around it, perhaps a sign, at most 4300 digits -/
def IntText (s : String) : Prop :=
  ∃ a sg x b n, s.toList = a ++ (sg ++ x) ++ b ∧ (∀ c ∈ a, isPySpace c = true) ∧ (∀ c ∈ b, isPySpace c = true) ∧
    (∀ c, (sg ++ x).head? = some c → isPySpace c = false) ∧ (∀ c, (sg ++ x).getLast? = some c → isPySpace c = false) ∧
    (sg = [] ∨ sg = ['+'] ∨ sg = ['-']) ∧ Underscored x n ∧ n ≤ 4300

/-- a value Python's `int` accepts -/
def IntLike : Val → Prop
  | .int _ | .bool _ => True
  | .str s | .elem s | .tok _ s => IntText s
  | _ => False

/-- a value Python can multiply by -1 -/
def Negatable : Val → Prop
  | .int _ | .bool _ | .str _ | .elem _ | .tok _ _ | .list _ => True
  | _ => False

/-- A condition of a loop that looks like the representation of a call, but is not: something else than a
dictionary at `function`, or `if` without an argument. -/
def BadCondition (w : Val) : Prop :=
  ∃ g, w.at? [.key "function"] = some g ∧ ((∀ d, g ≠ .dict d) ∨
    LooksLikeIf w ∧ w.at? [.key "function", .key "parameters", .key "arg_1"] = .none)

/-- An argument of `@minValue` that looks like the representation of a number with a sign, but is not. -/
def BadMinimum (w : Val) : Prop :=
  ∃ g, w.at? [.key "operator"] = some g ∧ ((∀ d, g ≠ .dict d) ∨
    (∃ u, g.at? [.key "type"] = some u ∧ u.eqStr "minus" = true) ∧
      ∀ y, g.at? [.key "operands", .key "integer_value"] = some y → ¬ Negatable y)

/-- Nested resources can be taken out of a body: what is under the reserved key (at every level of nesting) is a
resource, whose `depends_on`, if it has one, is a list. -/
inductive Adoptable : List (String × Val) → Prop where
  | none {c} : dGet "__child_resource__" c = .none → Adoptable c
  | child {c n t d} : (Val.dict c).at? [.key "__child_resource__", .key "__name__"] = some n →
      (Val.dict c).at? [.key "__child_resource__", .key "__attrs__", .key "type"] = some t →
      (Val.dict c).at? [.key "__child_resource__", .key "__attrs__", .key "config"] = some (.dict d) →
      (∀ y, dGet "depends_on" d = some y → ∃ ys, y = .list ys) → Adoptable d → Adoptable c

/-- `n.Fault ln r`: the piece `n` is at fault by itself (and its pieces are not to blame); `r` names the kind of
construct -/
inductive Node.Fault (ln : Bool) : Node → String → Prop where
  /-- a numeral with more than 4300 digits -/
  | int {d} : 4300 < d.1.length → Node.Fault ln (.expr (.int d)) "int_type"
  /-- a known function with a wrong number of arguments -/
  | call {f es s a} : s ∈ signatures → String.ofList f.1 ∈ s.names → (s.name, a) ∈ arities →
      ¬ Accepts a es.length → Node.Fault ln (.expr (.call f es)) "function"
  | condition {h c b w} : c.val ln = .ok w → BadCondition w → Node.Fault ln (.loop (.mk h (some c) b)) "loop"
  /-- a decorator without the argument it needs -/
  | noArgument {d n} : d.arg = .none → n ∈ knownDecos → n ∉ flags → String.ofList d.name.1 ∈ decoNames n →
      Node.Fault ln (.deco d) "decorator"
  | minimum {d e w} : d.arg = some e → String.ofList d.name.1 ∈ decoNames "minValue" → e.val ln = .ok w →
      BadMinimum w → Node.Fault ln (.deco d) "decorator"
  | maximum {d e w} : d.arg = some e → String.ofList d.name.1 ∈ decoNames "maxValue" → e.val ln = .ok w →
      ¬ IntLike w → Node.Fault ln (.deco d) "decorator"

/-- `d.Fault ln r`: the declaration `d` is at fault by itself -/
inductive Decl.Fault (ln : Bool) : Decl → String → Prop where
  | scope {b} : String.ofList b ∉ ["resourceGroup", "subscription", "managementGroup", "tenant"] →
      Decl.Fault ln (.scope b) "scope"
  /-- not exactly one `@` in the type of a resource -/
  | type {ds x b ex c} : b.count '@' ≠ 1 → Decl.Fault ln (.resource ds x b ex c) "type_api_pair"
  | nested {ds x b ex c d} : c.val ln = .ok (.dict d) → ¬ Adoptable d → Decl.Fault ln (.resource ds x b ex c) "resource"
  | module {ds x b c} : (∀ ty de, ¬ ModuleRef b ty de) → Decl.Fault ln (.module ds x b c) "module_path"

/-- something in the program is at fault -/
def Program.Fault (ln : Bool) (p : Program) (r : String) : Prop :=
  (∃ n, p.Has n ∧ n.Fault ln r) ∨ ∃ l d, (l, d) ∈ p ∧ d.Fault ln r

/-! ### The parts, one by one -/

theorem digitsOf_digits : ∀ (x : List Char),
    (∀ ds, digitsOf false x = some ds → Underscored x ds.length) ∧
    ∀ ds, digitsOf true x = some ds →
      x = [] ∧ ds = [] ∨ Underscored x ds.length ∨ ∃ cs, x = '_' :: cs ∧ Underscored cs ds.length
  | [] => ⟨fun ds h => by simp [digitsOf] at h, fun ds h => by simp [digitsOf] at h; exact .inl ⟨rfl, h⟩⟩
  | c :: cs => by
    have ih := digitsOf_digits cs
    have key : ∀ ds, c ≠ '_' → (∃ d, digitVal c = some d ∧ (digitsOf true cs).map (d :: ·) = some ds) →
        Underscored (c :: cs) ds.length := by
      rintro ds _ ⟨d, hd, h⟩
      simp only [Option.map_eq_some_iff] at h
      obtain ⟨ds', h, rfl⟩ := h
      rcases ih.2 ds' h with ⟨rfl, rfl⟩ | h | ⟨cs', rfl, h'⟩
      · exact .one hd
      · exact .more hd h
      · exact .sep hd h'
    constructor
    · intro ds h
      rw [digitsOf] at h
      by_cases hc : c = '_'
      · simp [hc] at h
      · rw [if_neg hc] at h
        cases hd : digitVal c with
        | none => simp [hd] at h
        | some d => rw [hd] at h; exact key ds hc ⟨d, hd, h⟩
    · intro ds h
      rw [digitsOf] at h
      by_cases hc : c = '_'
      · subst hc
        simp only [if_true] at h
        exact .inr (.inr ⟨cs, rfl, ih.1 ds h⟩)
      · rw [if_neg hc] at h
        cases hd : digitVal c with
        | none => simp [hd] at h
        | some d => rw [hd] at h; exact .inr (.inl (key ds hc ⟨d, hd, h⟩))

theorem digit_ne {c : Char} {d : Nat} (h : digitVal c = some d) : c ≠ '_' := by
  rintro rfl
  rw [show digitVal '_' = .none by decide] at h
  cases h

theorem digitsOf_of {x : List Char} {n : Nat} (h : Underscored x n) :
    ∃ ds : List Nat, ds.length = n ∧ ∀ pre, digitsOf pre x = some ds := by
  induction h with
  | @one c d hd => exact ⟨[d], rfl, fun pre => by rw [digitsOf, if_neg (digit_ne hd), hd]; simp [digitsOf]⟩
  | @more c d cs n hd _ ih =>
    obtain ⟨ds, rfl, h⟩ := ih
    exact ⟨d :: ds, rfl, fun pre => by rw [digitsOf, if_neg (digit_ne hd), hd]; simp [h true]⟩
  | @sep c d cs n hd _ ih =>
    obtain ⟨ds, rfl, h⟩ := ih
    refine ⟨d :: ds, rfl, fun pre => ?_⟩
    rw [digitsOf, if_neg (digit_ne hd), hd]
    simp [digitsOf, h false]

/-- `strip` -/
def stripped (p : Char → Bool) (l : List Char) : List Char := ((l.dropWhile p).reverse.dropWhile p).reverse

theorem strip_split (p : Char → Bool) (l : List Char) : ∃ a b, l = a ++ stripped p l ++ b ∧ (∀ c ∈ a, p c = true) ∧
    (∀ c ∈ b, p c = true) ∧ (∀ c, (stripped p l).head? = some c → p c = false) ∧
    (∀ c, (stripped p l).getLast? = some c → p c = false) := by
  have h1 : l = l.takeWhile p ++ l.dropWhile p := List.takeWhile_append_dropWhile.symm
  have h2 : l.dropWhile p = stripped p l ++ ((l.dropWhile p).reverse.takeWhile p).reverse := by
    rw [stripped, ← List.reverse_append, List.takeWhile_append_dropWhile, List.reverse_reverse]
  refine ⟨l.takeWhile p, ((l.dropWhile p).reverse.takeWhile p).reverse, ?_, ?_, ?_, ?_, ?_⟩
  · rw [List.append_assoc, ← h2]; exact h1
  · intro c hc; exact List.mem_takeWhile_imp hc
  · intro c hc; exact List.mem_takeWhile_imp (List.mem_reverse.mp hc)
  · intro c hc
    have := List.head?_dropWhile_not p l
    rw [h2, List.head?_append, hc] at this
    simpa using this
  · intro c hc
    rw [stripped, List.getLast?_reverse] at hc
    have := List.head?_dropWhile_not p (l.dropWhile p).reverse
    rw [hc] at this
    simpa using this

theorem strip_of {p : Char → Bool} {a x b : List Char} (ha : ∀ c ∈ a, p c = true) (hb : ∀ c ∈ b, p c = true)
    (h1 : ∀ c, x.head? = some c → p c = false) (h2 : ∀ c, x.getLast? = some c → p c = false) (hne : x ≠ []) :
    stripped p (a ++ x ++ b) = x := by
  have drop : ∀ {a y : List Char}, (∀ c ∈ a, p c = true) → (∀ c, y.head? = some c → p c = false) →
      (a ++ y).dropWhile p = y := by
    intro a y ha hy
    rw [List.dropWhile_append_of_pos ha]
    cases y with
    | nil => rfl
    | cons c y => simp [hy c rfl]
  rw [stripped, List.append_assoc, drop ha, List.reverse_append, drop, List.reverse_reverse]
  · intro c hc; exact hb c (List.mem_reverse.mp hc)
  · intro c hc; rw [List.head?_reverse] at hc; exact h2 c hc
  · intro c hc
    rw [List.head?_append] at hc
    cases x with
    | nil => exact absurd rfl hne
    | cons d x => exact h1 c (by simpa using hc)

theorem splitSign_split (x : List Char) : ∃ sg, x = sg ++ (splitSign x).2 ∧ (sg = [] ∨ sg = ['+'] ∨ sg = ['-']) := by
  unfold splitSign
  split
  · exact ⟨['-'], rfl, by simp⟩
  · exact ⟨['+'], rfl, by simp⟩
  · exact ⟨[], rfl, by simp⟩

theorem splitSign_of {sg x : List Char} {n : Nat} (hs : sg = [] ∨ sg = ['+'] ∨ sg = ['-']) (hx : Underscored x n) :
    (splitSign (sg ++ x)).2 = x := by
  rcases hs with rfl | rfl | rfl
  · rw [List.nil_append]
    have : ∀ c cs, x = c :: cs → ∃ d, digitVal c = some d := by
      intro c cs e
      cases hx with
      | one hd => cases e; exact ⟨_, hd⟩
      | more hd => cases e; exact ⟨_, hd⟩
      | sep hd => cases e; exact ⟨_, hd⟩
    unfold splitSign
    split
    · obtain ⟨d, hd⟩ := this _ _ rfl
      rw [show digitVal '-' = .none by decide] at hd; cases hd
    · obtain ⟨d, hd⟩ := this _ _ rfl
      rw [show digitVal '+' = .none by decide] at hd; cases hd
    · rfl
  · rfl
  · rfl

theorem intOfStr_iff {s : String} : (∃ i, intOfStr s = .ok i) ↔ IntText s := by
  have e : intOfStr s = match digitsOf false (splitSign (stripped isPySpace s.toList)).2 with
    | .none => .error (.valueError "")
    | some ds => if ds.length > intMaxStrDigits then .error (.valueError "")
      else .ok (if (splitSign (stripped isPySpace s.toList)).1 then -(ofDigits10 ds : Int) else (ofDigits10 ds : Int)) := rfl
  rw [e]
  constructor
  · rintro ⟨i, h⟩
    cases hd : digitsOf false (splitSign (stripped isPySpace s.toList)).2 with
    | none => rw [hd] at h; cases h
    | some ds =>
      rw [hd] at h
      simp only at h
      split at h
      · cases h
      · rename_i hn
        obtain ⟨a, b, h1, h2, h3, h4, h5⟩ := strip_split isPySpace s.toList
        obtain ⟨sg, h6, h7⟩ := splitSign_split (stripped isPySpace s.toList)
        refine ⟨a, sg, _, b, ds.length, by rw [← h6]; exact h1, h2, h3, by rw [← h6]; exact h4,
          by rw [← h6]; exact h5, h7, (digitsOf_digits _).1 ds hd, Nat.le_of_not_lt hn⟩
  · rintro ⟨a, sg, x, b, n, h1, h2, h3, h4, h5, h6, h7, h8⟩
    have hne : sg ++ x ≠ [] := by
      have : x ≠ [] := by cases h7 <;> simp
      simp [this]
    rw [h1, strip_of h2 h3 h4 h5 hne, splitSign_of h6 h7]
    obtain ⟨ds, rfl, hd⟩ := digitsOf_of h7
    rw [hd false]
    simp only
    have hn : ¬ ds.length > intMaxStrDigits := Nat.not_lt.mpr h8
    rw [if_neg hn]
    exact ⟨_, rfl⟩

theorem pyInt_iff {w : Val} : (∃ v, pyInt w = .ok v) ↔ IntLike w := by
  have hs : ∀ s, (∃ v, (intOfStr s).map Val.int = .ok v) ↔ IntText s := by
    intro s
    rw [← intOfStr_iff]
    cases intOfStr s <;> simp [Except.map]
  cases w <;> simp only [pyInt, IntLike, hs] <;> simp

theorem mulNegOne_iff {w : Val} : (∃ v, mulNegOne w = .ok v) ↔ Negatable w := by
  cases w <;> simp [mulNegOne, Negatable]

theorem at_one {w : Val} {k : String} : w.at? [.key k] = w.step? (.key k) := by
  simp only [Val.at?]
  cases w.step? (.key k) <;> rfl

theorem item_at {w x : Val} {k : String} : w.item k = .ok x ↔ w.at? [.key k] = some x := by
  rw [at_one]
  cases w <;> simp only [Val.item, Val.step?] <;> try simp
  rename_i d
  cases dGet k d <;> simp

theorem item_none {w : Val} {k : String} {e : PyErr} (h : w.item k = .error e) : w.at? [.key k] = .none := by
  cases hx : w.at? [.key k] with
  | none => rfl
  | some x => rw [item_at.mpr hx] at h; cases h

theorem condition_err {w : Val} {e : PyErr} (h : loopCondition w = .error e) : BadCondition w := by
  cases w with
  | dict d =>
    cases hg : dGet "function" d with
    | none => rw [loopCondition_noFunction hg] at h; cases h
    | some g =>
      refine ⟨g, by rw [at_one]; exact hg, ?_⟩
      simp only [loopCondition, Val.getOrEmpty, bind, Except.bind, hg, Option.getD_some] at h
      cases g with
      | dict d' =>
        right
        have at2 : ∀ π, (Val.dict d).at? (.key "function" :: π) = (Val.dict d').at? π := by
          intro π; simp only [Val.at?, Val.step?, hg, Option.bind_some]
        simp only [Val.get] at h
        by_cases hi : ((dGet "type" d').getD Val.none).eqStr "if" = true
        · rw [if_pos hi] at h
          cases ht : dGet "type" d' with
          | none => simp [ht, Val.eqStr] at hi
          | some u =>
            rw [ht] at hi
            refine ⟨⟨u, by rw [at2, at_one]; exact ht, hi⟩, ?_⟩
            rw [at2]
            cases hp : (Val.dict d').item "parameters" with
            | error e' => rw [show [PStep.key "parameters", .key "arg_1"] = [.key "parameters"] ++ [.key "arg_1"] from rfl,
                Val.at?_append, item_none hp]; rfl
            | ok ps =>
              rw [hp] at h
              rw [show [PStep.key "parameters", .key "arg_1"] = [.key "parameters"] ++ [.key "arg_1"] from rfl,
                Val.at?_append, item_at.mp hp]
              exact item_none h
        · rw [if_neg hi] at h; cases h
      | _ => left; intro d' e; cases e
  | _ => simp [loopCondition] at h

theorem condition_ok {w v : Val} (h : loopCondition w = .ok v) : ¬ BadCondition w := by
  rintro ⟨g, hg, h'⟩
  rw [at_one] at hg
  cases w with
  | dict d =>
    rcases h' with h' | ⟨h1, h2⟩
    · simp only [Val.step?] at hg
      simp only [loopCondition, Val.getOrEmpty, bind, Except.bind, hg, Option.getD_some] at h
      cases g with
      | dict d' => exact h' d' rfl
      | _ => simp [Val.get] at h
    · rcases loopCondition_object h with ⟨_, h3⟩ | ⟨h3, _⟩
      · rw [h2] at h3; cases h3
      · exact h3 h1
  | _ => simp [Val.step?] at hg

theorem minimum_iff {w : Val} : (∃ v, Decorators.minValArg w = .ok v) ↔ ¬ BadMinimum w := by
  cases w with
  | dict d =>
    cases hg : dGet "operator" d with
    | none =>
      simp only [Decorators.minValArg, Val.getOrEmpty, bind, Except.bind, hg, Option.getD_none, Val.get, dGet, Val.eqStr,
        pure, Except.pure]
      simp [BadMinimum, at_one, Val.step?, hg]
    | some g =>
      simp only [Decorators.minValArg, Val.getOrEmpty, bind, Except.bind, hg, Option.getD_some]
      unfold BadMinimum
      simp only [at_one, Val.step?, hg, Option.some.injEq, exists_eq_left']
      cases g with
      | dict d' =>
        simp only [Val.get]
        cases ht : dGet "type" d' with
        | none => simp [Val.eqStr, pure, Except.pure]
        | some u =>
          simp only [Option.getD_some, Option.some.injEq, exists_eq_left']
          by_cases hi : u.eqStr "minus" = true
          · simp only [hi, if_true, true_and]
            rw [show [PStep.key "operands", .key "integer_value"] = [.key "operands"] ++ [.key "integer_value"] from rfl,
                Val.at?_append]
            cases hp : (Val.dict d').item "operands" with
            | error e => simp [item_none hp]
            | ok ps =>
              rw [item_at.mp hp]
              simp only [Option.bind_some]
              cases hq : ps.item "integer_value" with
              | error e => simp [item_none hq]
              | ok n => simp [item_at.mp hq, mulNegOne_iff]
          · simp [hi, pure, Except.pure]
      | _ => simp [Val.get]
  | _ => simp [Decorators.minValArg, BadMinimum, at_one, Val.step?]

theorem dGet_depth {k : String} {d : List (String × Val)} {v : Val} (h : dGet k d = some v) : v.depth ≤ Val.depthItems d := by
  induction d with
  | nil => cases h
  | cons q d ih =>
    obtain ⟨k', u⟩ := q
    rw [dGet] at h
    rw [Val.depthItems]
    split at h
    · cases h; omega
    · have := ih h; omega

theorem adoptable_congr {c c' : List (String × Val)} (h : dGet "__child_resource__" c = dGet "__child_resource__" c') :
    Adoptable c ↔ Adoptable c' := by
  have key : ∀ {c c' : List (String × Val)}, dGet "__child_resource__" c = dGet "__child_resource__" c' →
      Adoptable c → Adoptable c' := by
    intro c c' h ha
    have hat : ∀ π, (Val.dict c).at? (.key "__child_resource__" :: π) = (Val.dict c').at? (.key "__child_resource__" :: π) := by
      intro π; simp only [Val.at?, Val.step?, h]
    cases ha with
    | none h1 => exact .none (h ▸ h1)
    | child h1 h2 h3 h4 h5 => rw [hat] at h1 h2 h3; exact .child h1 h2 h3 h4 h5
  exact ⟨key h, key h.symm⟩

/-- what the reserved key must hold -/
def IsChild (child : Val) (d : List (String × Val)) : Prop :=
  ∃ n t, child.at? [.key "__name__"] = some n ∧ child.at? [.key "__attrs__", .key "type"] = some t ∧
    child.at? [.key "__attrs__", .key "config"] = some (.dict d) ∧
    ∀ y, dGet "depends_on" d = some y → ∃ ys, y = .list ys

theorem adoptChild_of {pn pt pa child : Val} {d : List (String × Val)} (h : IsChild child d) :
    ∃ c a nn cfg, adoptChild pn pt pa child = .ok (.dict c, .dict a, nn, .dict cfg) ∧
      dGet "__child_resource__" cfg = dGet "__child_resource__" d ∧ ∃ t, dGet "type" a = some t := by
  obtain ⟨n, t, h1, h2, h3, h4⟩ := h
  cases child with
  | dict c =>
    rw [at_one] at h1
    simp only [Val.step?] at h1
    simp only [Val.at?, Val.step?] at h2 h3
    cases ha : dGet "__attrs__" c with
    | none => rw [ha] at h2; cases h2
    | some a =>
      rw [ha] at h2 h3
      simp only [Option.bind_some] at h2 h3
      cases a with
      | dict a =>
        simp only at h2 h3
        have h2' : dGet "type" a = some t := by cases hx : dGet "type" a <;> rw [hx] at h2 <;> simp_all
        have h3' : dGet "config" a = some (.dict d) := by cases hx : dGet "config" a <;> rw [hx] at h3 <;> simp_all
        have hd : ∃ deps, (dGet "depends_on" d).getD (.list []) = .list deps := by
          cases hx : dGet "depends_on" d with
          | none => exact ⟨[], rfl⟩
          | some y => obtain ⟨ys, rfl⟩ := h4 y hx; exact ⟨ys, rfl⟩
        obtain ⟨deps, hd⟩ := hd
        simp only [adoptChild, Val.item, h1, bind, Except.bind, Val.setItem, dGet_dSet_ne (show ("__attrs__" : String) ≠ "__name__" by decide), ha, h2',
          dGet_dSet_ne (show ("config" : String) ≠ "api_version" by decide), dGet_dSet_ne (show ("config" : String) ≠ "type" by decide), h3', hd]
        refine ⟨_, _, _, _, rfl, dGet_dSet_ne (by decide) _ _, .str (pt.pyStr ++ "/" ++ t.pyStr), ?_⟩
        · rw [dGet_dSet_ne (by decide), dGet_dSet_self]
      | _ => simp at h2
  | _ => simp [Val.at?, Val.step?] at h1

theorem adoptChild_is {pn pt pa child : Val} {r} (h : adoptChild pn pt pa child = .ok r) :
    ∃ d, IsChild child d := by
  unfold adoptChild at h
  obtain ⟨n, h1, h⟩ := bind_ok' h
  obtain ⟨c', h2, h⟩ := bind_ok' h
  obtain ⟨a, h3, h⟩ := bind_ok' h
  obtain ⟨t, h4, h⟩ := bind_ok' h
  obtain ⟨a1, h5, h⟩ := bind_ok' h
  obtain ⟨a2, h6, h⟩ := bind_ok' h
  obtain ⟨c, h7, h⟩ := bind_ok' h
  cases child with
  | dict cd =>
    simp only [Val.setItem] at h2
    cases h2
    rw [item_at, at_one] at h3
    simp only [Val.step?] at h3
    rw [dGet_dSet_ne (by decide)] at h3
    cases a with
    | dict a =>
      simp only [Val.setItem] at h5
      cases h5
      simp only [Val.setItem] at h6
      cases h6
      rw [item_at, at_one] at h7 h4
      simp only [Val.step?] at h7 h4
      rw [dGet_dSet_ne (by decide), dGet_dSet_ne (by decide)] at h7
      cases c with
      | dict d =>
        refine ⟨d, n, t, item_at.mp h1, ?_, ?_, ?_⟩
        · simp only [Val.at?, Val.step?, h3, h4, Option.bind_some]
        · simp only [Val.at?, Val.step?, h3, h7, Option.bind_some]
        · intro y hy
          simp only [hy, Option.getD_some] at h
          cases y with
          | list ys => exact ⟨ys, rfl⟩
          | _ => simp at h
      | _ => simp at h
    | _ => simp [Val.item] at h4
  | _ => simp [Val.item] at h1

theorem adoptable_iff (n : Nat) : ∀ {pn pt pa : Val} {cfg : List (String × Val)},
    (∀ ch, dGet "__child_resource__" cfg = some ch → ch.depth < n) →
    ((∃ q, processChild n pn pt pa cfg = .ok q) ↔ Adoptable cfg) := by
  induction n with
  | zero =>
    intro pn pt pa cfg hn
    cases hc : dGet "__child_resource__" cfg with
    | none => rw [processChild]; simp [Adoptable.none hc]
    | some ch => exact absurd (hn ch hc) (by omega)
  | succ n ih =>
    intro pn pt pa cfg hn
    rw [processChild]
    cases hc : dGet "__child_resource__" cfg with
    | none => simp [Adoptable.none hc]
    | some ch =>
      have at1 : ∀ π, (Val.dict cfg).at? (.key "__child_resource__" :: π) = ch.at? π := by
        intro π; simp only [Val.at?, Val.step?, hc, Option.bind_some]
      have hsub : ∀ d, IsChild ch d → ∀ ch', dGet "__child_resource__" d = some ch' → ch'.depth < n := by
        rintro d ⟨_, _, _, _, h3, _⟩ ch' hch'
        have h1 := dGet_depth hch'
        have h2 : (Val.dict d).depth < ch.depth := by
          cases ch with
          | dict c =>
            simp only [Val.at?, Val.step?] at h3
            cases ha : dGet "__attrs__" c with
            | none => rw [ha] at h3; cases h3
            | some a =>
              have e1 := dGet_depth ha
              rw [ha] at h3
              simp only [Option.bind_some] at h3
              cases a with
              | dict a =>
                simp only at h3
                have h3' : dGet "config" a = some (.dict d) := by
                  cases hx : dGet "config" a <;> rw [hx] at h3 <;> simp_all
                have e2 := dGet_depth h3'
                simp only [Val.depth] at e1 e2 ⊢
                omega
              | _ => simp at h3
          | _ => simp [Val.at?, Val.step?] at h3
        have h4 := hn ch hc
        simp only [Val.depth] at h2
        omega
      constructor
      · rintro ⟨q, h⟩
        simp only at h
        obtain ⟨r, hr, h⟩ := bind_ok' h
        obtain ⟨d, hd⟩ := adoptChild_is hr
        obtain ⟨c, a, nn, cfg', he, hg, t, ht⟩ := adoptChild_of (pn := pn) (pt := pt) (pa := pa) hd
        rw [hr] at he
        cases he
        simp only at h
        obtain ⟨ct, hct, h⟩ := bind_ok' h
        obtain ⟨q', hq, h⟩ := bind_ok' h
        have ha : Adoptable cfg' := (ih (by rw [hg]; exact hsub d hd)).mp ⟨_, hq⟩
        obtain ⟨n', t', h1, h2, h3, h4⟩ := hd
        exact .child (by rw [at1]; exact h1) (by rw [at1]; exact h2) (by rw [at1]; exact h3) h4
          ((adoptable_congr hg).mp ha)
      · intro h
        cases h with
        | none h => rw [hc] at h; cases h
        | @child _ n' t' d h1 h2 h3 h4 h5 =>
          rw [at1] at h1 h2 h3
          have hd : IsChild ch d := ⟨n', t', h1, h2, h3, h4⟩
          obtain ⟨c, a, nn, cfg', he, hg, t, ht⟩ := adoptChild_of (pn := pn) (pt := pt) (pa := pa) hd
          obtain ⟨q', hq⟩ := (ih (pn := nn) (pt := t) (pa := pa) (cfg := cfg') (by rw [hg]; exact hsub d hd)).mpr ((adoptable_congr hg).mpr h5)
          simp only [he, bind, Except.bind, Val.item, ht, hq, Val.setItem]
          exact ⟨_, rfl⟩

/-- what is wrong with a decorator -/
theorem deco_fault {x : String} (args : List Val) (hl : args.length ≤ 1) :
    (∃ v, Decorators.getDecorator x x args = .ok v) ↔
      ¬ ((args = [] ∧ ∃ n ∈ knownDecos, n ∉ flags ∧ x ∈ decoNames n) ∨
        (∃ w, args = [w] ∧ x ∈ decoNames "minValue" ∧ BadMinimum w) ∨
        ∃ w, args = [w] ∧ x ∈ decoNames "maxValue" ∧ ¬ IntLike w) := by
  have hcases : (∃ n ∈ knownDecos, x ∈ decoNames n) ∨ ∀ n ∈ knownDecos, x ∉ decoNames n := by
    by_cases h : ∃ n ∈ knownDecos, x ∈ decoNames n
    · exact .inl h
    · exact .inr fun n hn hx => h ⟨n, hn, hx⟩
  have hargs : args = [] ∨ ∃ w, args = [w] := by
    match args, hl with
    | [], _ => exact .inl rfl
    | [w], _ => exact .inr ⟨w, rfl⟩
  rcases hcases with ⟨n, hn, hx⟩ | hu
  · have hcar : n ∈ carriers.map Prod.fst ∨ n ∈ flags ∨ n = "minValue" ∨ n = "maxValue" := by
      simpa [knownDecos, or_assoc] using hn
    have hsep : ∀ a ∈ knownDecos, ∀ b ∈ knownDecos, ∀ y ∈ decoNames a, y ∈ decoNames b → a = b := by decide +kernel
    have hmin : "minValue" ∈ knownDecos := by decide
    have hmax : "maxValue" ∈ knownDecos := by decide
    have bare : n ∉ flags → Decorators.getDecorator x x [] = .error .indexError := by
      intro hf
      have key : ∀ n ∈ knownDecos, n ∉ flags → ∀ x ∈ decoNames n, Decorators.getDecorator x x [] = .error .indexError := by
        simp only [knownDecos, carriers, flags, decoNames, List.map, List.cons_append, List.nil_append, List.forall_mem_cons,
          List.not_mem_nil, false_implies, implies_true, and_true]
        repeat' apply And.intro
        all_goals intro h
        all_goals first
          | exact absurd h (by decide)
          | exact ⟨rfl, rfl⟩
      exact key n hn hf x hx
    rcases hargs with rfl | ⟨w, rfl⟩
    · by_cases hf : n ∈ flags
      · have := decoVal (d := x) (arg := .none) (.flag hf hx)
        simp only [Option.toList] at this
        simp only [this]
        constructor
        · rintro - (⟨-, m, hm, hm', hxm⟩ | ⟨w, h, _⟩ | ⟨w, h, _⟩)
          · rw [hsep n hn m hm x hx hxm] at hf; exact hm' hf
          · cases h
          · cases h
        · intro _; exact ⟨_, rfl⟩
      · rw [bare hf]
        constructor
        · rintro ⟨v, hv⟩; cases hv
        · intro h; exact absurd (.inl ⟨rfl, n, hn, hf, hx⟩) h
    · rcases hcar with hc | hf | rfl | rfl
      · obtain ⟨⟨n', t⟩, hc', rfl⟩ := List.mem_map.mp hc
        clear hc; have hc := hc'
        have := decoVal (d := x) (arg := some w) (.carrier hc hx)
        simp only [Option.toList] at this
        simp only [this]
        have h1 : ∀ p ∈ carriers, p.1 ≠ "minValue" ∧ p.1 ≠ "maxValue" := by decide
        constructor
        · rintro - (⟨h, -⟩ | ⟨w, -, h, _⟩ | ⟨w, -, h, _⟩)
          · cases h
          · exact (h1 _ hc).1 (hsep _ hn _ hmin x hx h)
          · exact (h1 _ hc).2 (hsep _ hn _ hmax x hx h)
        · intro _; exact ⟨_, rfl⟩
      · have := decoVal (d := x) (arg := some w) (.flag hf hx)
        simp only [Option.toList] at this
        simp only [this]
        have h1 : ∀ p ∈ flags, p ≠ "minValue" ∧ p ≠ "maxValue" := by decide
        constructor
        · rintro - (⟨h, -⟩ | ⟨w, -, h, _⟩ | ⟨w, -, h, _⟩)
          · cases h
          · exact (h1 _ hf).1 (hsep _ hn _ hmin x hx h)
          · exact (h1 _ hf).2 (hsep _ hn _ hmax x hx h)
        · intro _; exact ⟨_, rfl⟩
      · have hx' : x = "minValue" ∨ x = "sys.minValue" := by simpa [decoNames] using hx
        have : Decorators.getDecorator x x [w] = (Decorators.minValArg w).map (Decorators.ddata "min_value") := by
          rcases hx' with rfl | rfl <;> rfl
        rw [this]
        have hm := @minimum_iff w
        cases hv : Decorators.minValArg w with
        | ok v =>
          rw [hv] at hm
          have hm := hm.mp ⟨v, rfl⟩
          refine ⟨?_, fun _ => ⟨_, rfl⟩⟩
          rintro - (⟨h, -⟩ | ⟨w, h, -, h'⟩ | ⟨w, -, h, _⟩)
          · cases h
          · cases h; exact hm h'
          · exact absurd (hsep _ hn _ hmax x hx h) (by decide)
        | error e =>
          rw [hv] at hm
          refine ⟨fun ⟨v, hv⟩ => (by cases hv), fun h => ?_⟩
          obtain ⟨v, hv⟩ := hm.mpr fun hb => h (.inr (.inl ⟨w, rfl, hx, hb⟩))
          cases hv
      · have hx' : x = "maxValue" ∨ x = "sys.maxValue" := by simpa [decoNames] using hx
        have : Decorators.getDecorator x x [w] = (pyInt w).map (Decorators.ddata "max_value") := by
          rcases hx' with rfl | rfl <;> rfl
        rw [this]
        have hm := @pyInt_iff w
        cases hv : pyInt w with
        | ok v =>
          rw [hv] at hm
          have hm := hm.mp ⟨v, rfl⟩
          refine ⟨?_, fun _ => ⟨_, rfl⟩⟩
          rintro - (⟨h, -⟩ | ⟨w, -, h, _⟩ | ⟨w, h, -, h'⟩)
          · cases h
          · exact absurd (hsep _ hn _ hmin x hx h) (by decide)
          · cases h; exact h' hm
        | error e =>
          rw [hv] at hm
          refine ⟨fun ⟨v, hv⟩ => (by cases hv), fun h => ?_⟩
          have : IntLike w := by
            by_contra hb
            exact h (.inr (.inr ⟨w, rfl, hx, hb⟩))
          obtain ⟨v, hv⟩ := hm.mpr this
          cases hv
  · have hmin : "minValue" ∈ knownDecos := by decide
    have hmax : "maxValue" ∈ knownDecos := by decide
    have hno : ¬ ((args = [] ∧ ∃ n ∈ knownDecos, n ∉ flags ∧ x ∈ decoNames n) ∨
        (∃ w, args = [w] ∧ x ∈ decoNames "minValue" ∧ BadMinimum w) ∨
        ∃ w, args = [w] ∧ x ∈ decoNames "maxValue" ∧ ¬ IntLike w) := by
      rintro (⟨-, n, hn, -, h⟩ | ⟨w, -, h, _⟩ | ⟨w, -, h, _⟩)
      · exact hu n hn h
      · exact hu _ hmin h
      · exact hu _ hmax h
    refine ⟨fun _ => hno, fun _ => ?_⟩
    rcases hargs with rfl | ⟨w, rfl⟩
    · exact ⟨_, decoVal (arg := .none) (.unknownBare hu)⟩
    · exact ⟨_, decoVal (arg := some w) (.unknown hu)⟩

/-! ### Who is to blame for a failure -/

theorem Part.head {n m k : Node} (h : Part1 n m) (h' : Part m k) : Part n k := by
  induction h' with
  | refl => exact .step .refl h
  | step _ h2 ih => exact .step ih h2

/-- every failure of a computation is the fault of one of the pieces `S` -/
def Blames (ln : Bool) (S : Node → Prop) {α} (x : Except VErr α) : Prop :=
  ∀ er, x = .error er → ∃ r ex n, er = .visit r ex ∧ S n ∧ n.Fault ln r

theorem Blames.ok {ln S α} (a : α) : Blames ln S (.ok a) := fun _ h => nomatch h

theorem Blames.bind' {ln S α β} {x : Except VErr α} {f : α → Except VErr β} (h : Blames ln S x)
    (h' : ∀ a, x = .ok a → Blames ln S (f a)) : Blames ln S (x >>= f) := by
  intro er e
  cases hx : x with
  | error er' => rw [hx] at e; cases e; exact h _ hx
  | ok a => rw [hx] at e; exact h' a hx er e

theorem Blames.bind {ln S α β} {x : Except VErr α} {f : α → Except VErr β} (h : Blames ln S x)
    (h' : ∀ a, Blames ln S (f a)) : Blames ln S (x >>= f) := .bind' h (fun a _ => h' a)

theorem Blames.mono {ln S S' α} {x : Except VErr α} (h : Blames ln S x) (hS : ∀ n, S n → S' n) : Blames ln S' x := by
  intro er e
  obtain ⟨r, ex, n, h1, h2, h3⟩ := h er e
  exact ⟨r, ex, n, h1, hS n h2, h3⟩

theorem Blames.inRule {ln S α} {r : String} {y : Except PyErr α}
    (h : ∀ e, y = .error e → ∃ n, S n ∧ Node.Fault ln n r) : Blames ln S (Pycep.inRule r y) := by
  intro er he
  cases y with
  | ok => cases he
  | error e =>
    cases he
    obtain ⟨n, h1, h2⟩ := h e rfl
    exact ⟨r, e, n, rfl, h1, h2⟩

theorem Blames.part {ln n m α} {x : Except VErr α} (h : Blames ln (Part m) x) (h1 : Part1 n m) : Blames ln (Part n) x :=
  h.mono fun _ hk => hk.head h1

/-- a wrong number of arguments -/
theorem call_fault {ln : Bool} {f : FunName} {es : List Expr} {vs : List Val} (hvs : Expr.vals ln es = .ok vs) {e : PyErr}
    (h : Functions.getFunction (txt f.1) (txt f.1) vs = .error e) : Node.Fault ln (.expr (.call f es)) "function" := by
  obtain ⟨s, hs, hf, hr⟩ := funErr_iff.mp ⟨e, h⟩
  obtain ⟨a, ha, hacc⟩ := C30_arities hs
  refine .call hs hf ha fun hn => ?_
  rw [(vals_getElem hvs).1] at hn
  obtain ⟨v, hv⟩ := (hacc _ hf vs).mpr hn
  rw [txt] at h
  rw [h] at hv; cases hv

mutual
theorem Expr.blames (ln : Bool) : (e : Expr) → Blames ln (Part (.expr e)) (e.val ln)
  | .null => by unfold Expr.val; exact .ok _
  | .tru => by unfold Expr.val; exact .ok _
  | .fls => by unfold Expr.val; exact .ok _
  | .int d => by
    unfold Expr.val
    split
    · exact .ok _
    · intro er h
      cases h
      exact ⟨_, _, _, rfl, .refl, .int (Nat.not_le.mp ‹_›)⟩
  | .ident _ => by unfold Expr.val; exact .ok _
  | .str _ => by unfold Expr.val; exact .ok _
  | .multi _ => by unfold Expr.val; exact .ok _
  | .array es => by
    unfold Expr.val
    exact .bind ((Expr.blamess ln es).mono fun _ ⟨e, he, hk⟩ => hk.head (.elem he)) fun _ => .ok _
  | .object is => by
    unfold Expr.val
    exact .bind ((Item.blamess ln is).mono fun _ ⟨i, hi, hk⟩ => hk.head (.member hi)) fun _ => .ok _
  | .call f es => by
    unfold Expr.val
    exact .bind' ((Expr.blamess ln es).mono fun _ ⟨e, he, hk⟩ => hk.head (.arg he)) fun vs hvs =>
      .bind (.inRule fun e he => ⟨_, .refl, call_fault hvs he⟩) fun _ => .ok _
  | .bin _ a b => by
    unfold Expr.val; exact .bind ((a.blames ln).part .left) fun _ => .bind ((b.blames ln).part .right) fun _ => .ok _
  | .not a => by unfold Expr.val; exact .bind ((a.blames ln).part .not) fun _ => .ok _
  | .minus a => by unfold Expr.val; exact .bind ((a.blames ln).part .minus) fun _ => .ok _
  | .cond c t f => by
    unfold Expr.val
    exact .bind ((c.blames ln).part .cond) fun _ => .bind ((t.blames ln).part .condT) fun _ =>
      .bind ((f.blames ln).part .condF) fun _ => .ok _
  | .method a _ args => by
    unfold Expr.val
    exact .bind ((a.blames ln).part .method) fun _ =>
      .bind ((Expr.optBlamess ln args).mono fun _ ⟨e, he, hk⟩ => hk.head (.methodArg he)) fun _ => .ok _
  | .lambda v e => by
    unfold Expr.val
    exact .bind ((v.blames ln).part .lambdaV) fun _ => .bind ((e.blames ln).part .lambdaB) fun _ => .ok _
  | .lambdaN v1 v2 v3 vs e => by
    unfold Expr.val
    exact .bind ((v1.blames ln).part (.lambdaNV (by simp))) fun _ => .bind ((v2.blames ln).part (.lambdaNV (by simp))) fun _ =>
      .bind ((v3.blames ln).part (.lambdaNV (by simp))) fun _ =>
      .bind ((Expr.blamess ln vs).mono fun _ ⟨e, he, hk⟩ => hk.head (.lambdaNV (by simp [he]))) fun _ =>
      .bind ((e.blames ln).part .lambdaNB) fun _ => .ok _
theorem Expr.blamess (ln : Bool) : (es : List Expr) → Blames ln (fun n => ∃ e ∈ es, Part (.expr e) n) (Expr.vals ln es)
  | [] => by unfold Expr.vals; exact .ok _
  | e :: es => by
    unfold Expr.vals
    exact .bind ((e.blames ln).mono fun _ hk => ⟨e, by simp, hk⟩) fun _ =>
      .bind ((Expr.blamess ln es).mono fun _ ⟨e', he, hk⟩ => ⟨e', by simp [he], hk⟩) fun _ => .ok _
theorem Expr.optBlames (ln : Bool) : (e : Option Expr) → Blames ln (fun n => ∃ e', e = some e' ∧ Part (.expr e') n) (Expr.optVal ln e)
  | .none => by unfold Expr.optVal; exact .ok _
  | some e => by unfold Expr.optVal; exact (e.blames ln).mono fun _ hk => ⟨e, rfl, hk⟩
theorem Expr.optBlamess (ln : Bool) : (es : List (Option Expr)) →
    Blames ln (fun n => ∃ e, some e ∈ es ∧ Part (.expr e) n) (Expr.optVals ln es)
  | [] => by unfold Expr.optVals; exact .ok _
  | e :: es => by
    unfold Expr.optVals
    exact .bind ((Expr.optBlames ln e).mono fun _ ⟨e', he, hk⟩ => ⟨e', by simp [he], hk⟩) fun _ =>
      .bind ((Expr.optBlamess ln es).mono fun _ ⟨e', he, hk⟩ => ⟨e', by simp [he], hk⟩) fun _ => .ok _
theorem Item.blames (ln : Bool) : (i : Item) → Blames ln (Part i.node) (i.val ln)
  | .pair _ e => by unfold Item.val; exact .bind (e.blames ln) fun _ => .ok _
  | .pairLoop _ l => by unfold Item.val; exact .bind (l.blames ln) fun _ => .ok _
  | .child _ _ _ _ c => by unfold Item.val; exact .bind (c.blames ln) fun _ => .ok _
theorem Item.blamess (ln : Bool) : (is : List Item) → Blames ln (fun n => ∃ i ∈ is, Part i.node n) (Item.vals ln is)
  | [] => by unfold Item.vals; exact .ok _
  | i :: is => by
    unfold Item.vals
    exact .bind ((i.blames ln).mono fun _ hk => ⟨i, by simp, hk⟩) fun _ =>
      .bind ((Item.blamess ln is).mono fun _ ⟨e', he, hk⟩ => ⟨e', by simp [he], hk⟩) fun _ => .ok _
theorem Loop.blames (ln : Bool) : (l : Loop) → Blames ln (Part (.loop l)) (l.val ln)
  | .mk h c b => by
    unfold Loop.val
    refine .bind ((h.blames ln).part .loopHead) fun _ => .bind' ((Expr.optBlames ln c).mono ?_) fun w hw =>
      .bind ((b.blames ln).part .loopBody) fun _ => .bind (.inRule fun e he => ⟨_, .refl, ?_⟩) fun _ => .ok _
    · rintro n ⟨e, rfl, hk⟩; exact hk.head .loopCond
    · cases c with
      | none => simp only [Expr.optVal, Except.ok.injEq] at hw; subst hw; simp [loopCondition] at he
      | some c => rw [Expr.optVal] at hw; exact .condition hw (condition_err he)
theorem LoopHead.blames (ln : Bool) : (h : LoopHead) → Blames ln (Part (.head h)) (h.val ln)
  | .arr _ e => by unfold LoopHead.val; exact .bind ((e.blames ln).part .headArr) fun _ => .ok _
  | .arrIdx _ _ e => by unfold LoopHead.val; exact .bind ((e.blames ln).part .headIdx) fun _ => .ok _
  | .obj _ e => by unfold LoopHead.val; exact .bind ((e.blames ln).part .headObj) fun _ => .ok _
theorem Config.blames (ln : Bool) : (c : Config) → Blames ln (Part (.config c)) (c.val ln)
  | .obj is => by
    unfold Config.val
    exact .bind ((Item.blamess ln is).mono fun _ ⟨i, hi, hk⟩ => hk.head (.configMember hi)) fun _ => .ok _
  | .loop l => by unfold Config.val; exact (l.blames ln).part .configLoop
  | .cond c e => by
    unfold Config.val; exact .bind ((c.blames ln).part .configCond) fun _ => .bind ((e.blames ln).part .configBody) fun _ => .ok _
end

theorem Deco.blames (ln : Bool) (d : Deco) : Blames ln (Part (.deco d)) (d.val ln) := by
  unfold Deco.val
  simp only
  have key : ∀ args : List Val, (∀ w, args = [w] → ∃ e, d.arg = some e ∧ e.val ln = .ok w) → (args = [] → d.arg = .none) →
      args.length ≤ 1 → Blames ln (Part (.deco d))
        (Pycep.inRule "decorator" (Decorators.getDecorator (txt d.name.1) (txt d.name.1) args)) := by
    intro args h1 h0 hl
    refine .inRule fun e he => ⟨_, .refl, ?_⟩
    have h := (deco_fault (x := txt d.name.1) args hl).not.mp (by rintro ⟨v, hv⟩; rw [he] at hv; cases hv)
    rcases not_not.mp h with ⟨rfl, n, hn, hf, hx⟩ | ⟨w, rfl, hx, hw⟩ | ⟨w, rfl, hx, hw⟩
    · exact .noArgument (h0 rfl) hn hf hx
    · obtain ⟨e', he1, he2⟩ := h1 w rfl
      exact .minimum he1 hx he2 hw
    · obtain ⟨e', he1, he2⟩ := h1 w rfl
      exact .maximum he1 hx he2 hw
  split
  · rename_i e he
    refine .bind' ((e.blames ln).part (.decoArg he)) fun v hv => .bind' (.ok _) fun args hargs => ?_
    cases hargs
    exact key [v] (by rintro w ⟨⟩; exact ⟨e, he, hv⟩) (by simp) (by simp)
  · rename_i he
    exact .bind' (.ok _) fun args hargs => by
      cases hargs
      exact key [] (by simp) (fun _ => he) (by simp)

theorem decoBlames (ln : Bool) : (ds : List Deco) → Blames ln (fun n => ∃ d ∈ ds, Part (.deco d) n) (decoVals ln ds)
  | [] => by unfold decoVals; exact .ok _
  | d :: ds => by
    unfold decoVals
    exact .bind ((d.blames ln).mono fun _ hk => ⟨d, by simp, hk⟩) fun _ =>
      .bind ((decoBlames ln ds).mono fun _ ⟨e', he, hk⟩ => ⟨e', by simp [he], hk⟩) fun _ => .ok _

/-- the declaration or one of its pieces is at fault -/
def Decl.Faulty (ln : Bool) (d : Decl) (r : String) : Prop :=
  (∃ m n, DeclPart1 d m ∧ Part m n ∧ n.Fault ln r) ∨ d.Fault ln r

/-- every failure of a computation is the fault of the declaration `d` or of one of its pieces -/
def Accuses (ln : Bool) (d : Decl) {α} (x : Except VErr α) : Prop :=
  ∀ er, x = .error er → ∃ r ex, er = .visit r ex ∧ d.Faulty ln r

theorem Accuses.ok {ln d α} (a : α) : Accuses ln d (.ok a) := fun _ h => nomatch h

theorem Accuses.bind' {ln d α β} {x : Except VErr α} {f : α → Except VErr β} (h : Accuses ln d x)
    (h' : ∀ a, x = .ok a → Accuses ln d (f a)) : Accuses ln d (x >>= f) := by
  intro er e
  cases hx : x with
  | error er' => rw [hx] at e; cases e; exact h _ hx
  | ok a => rw [hx] at e; exact h' a hx er e

theorem Accuses.bind {ln d α β} {x : Except VErr α} {f : α → Except VErr β} (h : Accuses ln d x)
    (h' : ∀ a, Accuses ln d (f a)) : Accuses ln d (x >>= f) := .bind' h (fun a _ => h' a)

theorem Accuses.pieces {ln d S α} {x : Except VErr α} (h : Blames ln S x) (hS : ∀ n, S n → ∃ m, DeclPart1 d m ∧ Part m n) :
    Accuses ln d x := by
  intro er e
  obtain ⟨r, ex, n, h1, h2, h3⟩ := h er e
  obtain ⟨m, h4, h5⟩ := hS n h2
  exact ⟨r, ex, h1, .inl ⟨m, n, h4, h5, h3⟩⟩

theorem Accuses.piece {ln d m α} {x : Except VErr α} (h : Blames ln (Part m) x) (hm : DeclPart1 d m) :
    Accuses ln d x := .pieces h fun _ hk => ⟨m, hm, hk⟩

theorem Accuses.decos {ln : Bool} {d : Decl} {ds : List Deco} (h : ∀ a ∈ ds, DeclPart1 d (.deco a)) :
    Accuses ln d (decoVals ln ds) := .pieces (decoBlames ln ds) fun _ ⟨a, ha, hk⟩ => ⟨_, h a ha, hk⟩

theorem Accuses.inRule {ln d α} {r : String} {y : Except PyErr α}
    (h : ∀ e, y = .error e → Decl.Fault ln d r) : Accuses ln d (Pycep.inRule r y) := by
  intro er he
  cases y with
  | ok => cases he
  | error e => cases he; exact ⟨r, e, rfl, .inr (h e rfl)⟩

theorem LoopOrExpr.accuses {ln : Bool} {d : Decl} (v : LoopOrExpr) (h1 : ∀ e, v = .expr e → DeclPart1 d (.expr e))
    (h2 : ∀ l, v = .loop l → DeclPart1 d (.loop l)) : Accuses ln d (v.val ln) := by
  cases v with
  | expr e => exact .piece (Expr.blames ln e) (h1 e rfl)
  | loop l => exact .piece (Loop.blames ln l) (h2 l rfl)

theorem typeApi_count {b : List Char} : (∃ q, typeApi b = .ok q) ↔ b.count '@' = 1 := by
  constructor
  · rintro ⟨⟨t, api⟩, h⟩
    obtain ⟨rfl, h1, h2⟩ := typeApi_iff.mp h
    rw [List.count_append, List.count_cons_self, List.count_eq_zero.mpr h1, List.count_eq_zero.mpr h2]
  · intro h
    have hm : '@' ∈ b := List.count_pos_iff.mp (by omega)
    obtain ⟨x, y, rfl⟩ := List.append_of_mem hm
    rw [List.count_append, List.count_cons_self] at h
    refine ⟨(String.ofList x, String.ofList y), typeApi_iff.mpr ⟨by simp, ?_, ?_⟩⟩
    · rw [String.toList_ofList]; exact List.count_eq_zero.mp (by omega)
    · rw [String.toList_ofList]; exact List.count_eq_zero.mp (by omega)

theorem resource_adopts {name t api : String} {d : List (String × Val)} :
    (∃ q, resourceVal name t api (.dict d) = .ok q) ↔ Adoptable d := by
  rw [resourceVal]
  refine adoptable_iff _ fun ch hch => ?_
  have := dGet_depth hch
  simp only [Val.depth]
  omega

theorem classify_ok {b : List Char} : (∃ v, classifyModulePath (txt b) = .ok v) ↔ ∃ ty de, ModuleRef b ty de := by
  constructor
  · rintro ⟨v, h⟩
    obtain ⟨ty, de, h, _⟩ := classify_iff.mp h
    exact ⟨ty, de, h⟩
  · rintro ⟨ty, de, h⟩
    exact ⟨_, classify_iff.mpr ⟨ty, de, h, rfl⟩⟩

theorem Decl.accuses (ln : Bool) (l : Lines) (d : Decl) : Accuses ln d (d.out ln l) := by
  cases d with
  | scope b =>
    simp only [Decl.out]
    split
    · exact .ok _
    · intro er h
      cases h
      exact ⟨_, _, rfl, .inr (.scope ‹_›)⟩
  | importNs b => exact .ok _
  | importFrom i is b => exact .ok _
  | extension name config al =>
    refine .bind ?_ fun _ => .ok _
    cases config with
    | none => exact .ok _
    | some is => exact .bind (.pieces (Item.blamess ln is) fun _ ⟨i, hi, hk⟩ => ⟨_, .extension hi, hk⟩) fun _ => .ok _
  | metadata => exact .ok _
  | param ds _ _ e =>
    refine .bind (.decos fun _ h => .paramDeco h) fun _ => .bind (.pieces (Expr.optBlames ln e) ?_) fun _ => .ok _
    rintro n ⟨e, rfl, hk⟩
    exact ⟨_, .paramDefault, hk⟩
  | var ds _ _ e =>
    exact .bind (.decos fun _ h => .varDeco h) fun _ =>
      .bind (e.accuses (by rintro e rfl; exact .varExpr) (by rintro e rfl; exact .varLoop)) fun _ => .ok _
  | output ds _ _ e =>
    exact .bind (.decos fun _ h => .outDeco h) fun _ =>
      .bind (e.accuses (by rintro e rfl; exact .outExpr) (by rintro e rfl; exact .outLoop)) fun _ => .ok _
  | resource ds name ta ex c =>
    refine .bind (.decos fun _ h => .resDeco h) fun _ => .bind (.inRule fun e he => .type fun h => ?_) fun _ =>
      .bind' (.piece (c.blames ln) .resConfig) fun v hv => .bind (.inRule fun e he => ?_) fun _ => .ok _
    · obtain ⟨q, hq⟩ := typeApi_count.mpr h
      rw [he] at hq; cases hq
    · obtain ⟨d, rfl⟩ := config_dict hv
      refine .nested hv fun ha => ?_
      obtain ⟨q, hq⟩ := resource_adopts.mpr ha
      rw [he] at hq; cases hq
  | module ds name path c =>
    refine .bind (.decos fun _ h => .modDeco h) fun _ => .bind' (.inRule fun e he => .module fun ty de h => ?_) fun p hp =>
      .bind (.piece (c.blames ln) .modConfig) fun _ => ?_
    · obtain ⟨v, hv⟩ := classify_ok.mpr ⟨ty, de, h⟩
      rw [he] at hv; cases hv
    · obtain ⟨t, d, rfl⟩ := classify_items (inRule_ok hp)
      exact .ok _
  | typ ds _ e es =>
    refine .bind (.decos fun _ h => .typDeco h) fun _ => .bind ?_ fun _ => .ok _
    unfold typeVal
    split
    · exact .piece (e.blames ln) (.typExpr (by simp))
    · exact .bind (.piece (e.blames ln) (.typExpr (by simp))) fun _ =>
        .bind (.pieces (Expr.blamess ln es) fun _ ⟨a, ha, hk⟩ => ⟨_, .typExpr (by simp [ha]), hk⟩) fun _ => .ok _
  | func ds _ _ _ b =>
    exact .bind (.decos fun _ h => .funcDeco h) fun _ => .bind (.piece (b.blames ln) .funcBody) fun _ => .ok _

theorem Program.accuses {ln : Bool} {p : Program} {er : VErr} (h : p.val ln = .error er) :
    ∃ r ex, er = .visit r ex ∧ p.Fault ln r := by
  have key : ∀ (p : Program) er, p.outs ln = .error er → ∃ l d r ex, (l, d) ∈ p ∧ er = .visit r ex ∧ d.Faulty ln r := by
    intro p
    induction p with
    | nil => intro er h; cases h
    | cons q p ih =>
      obtain ⟨l, d⟩ := q
      intro er h
      rw [Program.outs] at h
      cases hd : d.out ln l with
      | error er' =>
        rw [hd] at h
        cases h
        obtain ⟨r, ex, h1, h2⟩ := d.accuses ln l _ hd
        exact ⟨l, d, r, ex, by simp, h1, h2⟩
      | ok o =>
        rw [hd] at h
        cases ho : Program.outs ln p with
        | error er' =>
          rw [ho] at h
          cases h
          obtain ⟨l', d', r, ex, h1, h2, h3⟩ := ih _ ho
          exact ⟨l', d', r, ex, by simp [h1], h2, h3⟩
        | ok os => rw [ho] at h; cases h
  rw [Program.val] at h
  cases ho : p.outs ln with
  | ok os => rw [ho] at h; cases h
  | error er' =>
    rw [ho] at h
    cases h
    obtain ⟨l, d, r, ex, h1, h2, h3⟩ := key p _ ho
    refine ⟨r, ex, h2, ?_⟩
    rcases h3 with ⟨m, n, h3, h4, h5⟩ | h3
    · exact .inl ⟨n, ⟨l, d, m, h1, h3, h4⟩, h5⟩
    · exact .inr ⟨l, d, h1, h3⟩

/-! ### A fault makes the document fail -/

theorem Node.fault_fails {ln : Bool} {n : Node} {r : String} (h : n.Fault ln r) (y : Val) : n.val ln ≠ .ok y := by
  intro hy
  cases h with
  | @int d hd =>
    rw [Node.val, Expr.val, if_neg (show ¬ d.1.length ≤ intMaxStrDigits from Nat.not_le.mpr hd)] at hy
    cases hy
  | @call f es s a hs hf ha hna =>
    rw [Node.val, Expr.val] at hy
    obtain ⟨vs, hvs, hy⟩ := bind_ok' hy
    obtain ⟨data, hd, hy⟩ := bind_ok' hy
    obtain ⟨a', ha', hacc⟩ := C30_arities hs
    have hnd : (arities.map Prod.fst).Nodup := by decide +kernel
    have : a = a' := fst_unique hnd ha ha'
    subst this
    have := (hacc _ hf vs).mp ⟨data, inRule_ok hd⟩
    rw [← (vals_getElem hvs).1] at this
    exact hna this
  | @condition h c b w hw hbad =>
    rw [Node.val, Loop.val] at hy
    obtain ⟨x, _, hy⟩ := bind_ok' hy
    obtain ⟨w', hw', hy⟩ := bind_ok' hy
    obtain ⟨x', _, hy⟩ := bind_ok' hy
    obtain ⟨u, hu, hy⟩ := bind_ok' hy
    rw [Expr.optVal, hw] at hw'
    cases hw'
    exact condition_ok (inRule_ok hu) hbad
  | @noArgument d n hd hn hf hx =>
    rw [Node.val, Deco.val, hd] at hy
    obtain ⟨args, ha, hy⟩ := bind_ok' hy
    cases ha
    exact (deco_fault [] (by simp)).mp ⟨y, inRule_ok hy⟩ (.inl ⟨rfl, n, hn, hf, hx⟩)
  | @minimum d e w he hx hw hbad =>
    rw [Node.val, Deco.val, he] at hy
    obtain ⟨args, ha, hy⟩ := bind_ok' hy
    simp only [hw] at ha
    cases ha
    exact (deco_fault [w] (by simp)).mp ⟨y, inRule_ok hy⟩ (.inr (.inl ⟨w, rfl, hx, hbad⟩))
  | @maximum d e w he hx hw hbad =>
    rw [Node.val, Deco.val, he] at hy
    obtain ⟨args, ha, hy⟩ := bind_ok' hy
    simp only [hw] at ha
    cases ha
    exact (deco_fault [w] (by simp)).mp ⟨y, inRule_ok hy⟩ (.inr (.inr ⟨w, rfl, hx, hbad⟩))

theorem Decl.fault_fails {ln : Bool} {l : Lines} {d : Decl} {r : String} (h : d.Fault ln r) (o : Out) :
    d.out ln l ≠ .ok o := by
  intro ho
  cases h with
  | scope hb => simp only [Decl.out, txt, if_neg hb] at ho; cases ho
  | type hb =>
    rw [Decl.out] at ho
    obtain ⟨vs, _, ho⟩ := bind_ok' ho
    obtain ⟨q, hq, _⟩ := bind_ok' ho
    exact hb (typeApi_count.mp ⟨q, inRule_ok hq⟩)
  | nested hc hna =>
    rw [Decl.out] at ho
    obtain ⟨vs, _, ho⟩ := bind_ok' ho
    obtain ⟨q, hq, ho⟩ := bind_ok' ho
    obtain ⟨t, api⟩ := q
    obtain ⟨v, hv, ho⟩ := bind_ok' ho
    obtain ⟨u, hu, ho⟩ := bind_ok' ho
    rw [hc] at hv
    cases hv
    exact hna (resource_adopts.mp ⟨u, inRule_ok hu⟩)
  | module hno =>
    rw [Decl.out] at ho
    obtain ⟨vs, _, ho⟩ := bind_ok' ho
    obtain ⟨q, hq, ho⟩ := bind_ok' ho
    obtain ⟨ty, de, h⟩ := classify_ok.mp ⟨q, inRule_ok hq⟩
    exact hno ty de h

theorem Program.fault_fails {ln : Bool} {p : Program} {r : String} (h : p.Fault ln r) (v : Val) : p.val ln ≠ .ok v := by
  intro hv
  rcases h with ⟨n, hn, h⟩ | ⟨l, d, hd, h⟩
  · obtain ⟨y, hy⟩ := has_val hn hv
    exact n.fault_fails h y hy
  · rw [Program.val] at hv
    obtain ⟨os, hos, hv⟩ := bind_ok' hv
    obtain ⟨o, ho⟩ := outs_mem hos hd
    exact d.fault_fails h o ho

/-! ### Documents -/

/-- **C83.** A document whose syntax is accepted (`create_tree` succeeds) is parsed exactly if nothing in it is at
fault; and if it fails, then with an exception that names the construct at fault. -/
theorem C83_exactly {text path tree} (h : createTree' text path = .ok tree) :
    ∃ t p, chosenText text path = .ok t ∧ Spells t p ∧ ∀ P : Parser,
      ((∃ v, P.parse text path = .ok v) ↔ ∀ r, ¬ p.Fault P.addLineNumbers r) ∧
      ((∃ e, P.parse text path = .error e) ↔
        ∃ r e, P.parse text path = .error (.visitError r e) ∧ p.Fault P.addLineNumbers r) := by
  rcases createTree'_cases text path with ⟨e, h1, h2⟩ | ⟨t, m, h1, h2, h3, h4⟩ | ⟨t, h1, h2, _, h3⟩ |
    ⟨t, tree', p, h1, h2, hl, h3, h4, h5⟩
  · rw [h] at h2; cases h2
  · rw [h] at h3; cases h3
  · rw [h] at h3; cases h3
  · rw [h] at h5
    cases h5
    refine ⟨t, p, h1, h3, fun P => ?_⟩
    have hp : P.parse text path = liftV (p.val P.addLineNumbers) := by
      rw [parse_eq, h]; simp only [Except.bind, bicepToJson_program h4]
    cases hv : p.val P.addLineNumbers with
    | ok v =>
      rw [hv] at hp
      rw [hp]
      have hno : ∀ r, ¬ p.Fault P.addLineNumbers r := fun r hf => Program.fault_fails hf v hv
      refine ⟨⟨fun _ => hno, fun _ => ⟨v, rfl⟩⟩, ?_, ?_⟩
      · rintro ⟨e, he⟩; cases he
      · rintro ⟨r, e, he, _⟩; cases he
    | error er =>
      obtain ⟨r, ex, rfl, hf⟩ := Program.accuses hv
      rw [hv] at hp
      rw [hp]
      refine ⟨⟨?_, fun hno => absurd hf (hno r)⟩, fun _ => ⟨r, ex, rfl, hf⟩, fun _ => ⟨_, rfl⟩⟩
      rintro ⟨v, hv⟩; cases hv

/-! ### The first fault -/

theorem Decl.faulty_fails {ln : Bool} {l : Lines} {d : Decl} {r : String} (h : d.Faulty ln r) (o : Out) :
    d.out ln l ≠ .ok o := by
  intro ho
  have hp : Program.Fault ln [(l, d)] r := by
    rcases h with ⟨m, n, h1, h2, h3⟩ | h
    · exact .inl ⟨n, ⟨l, d, m, by simp, h1, h2⟩, h3⟩
    · exact .inr ⟨l, d, by simp, h⟩
  refine Program.fault_fails hp (.dict (collect (entries ln [o]))) ?_
  simp only [Program.val, Program.outs, ho]
  rfl

theorem outs_first {ln : Bool} {p : Program} {er : VErr} (h : p.outs ln = .error er) :
    ∃ p1 l d p2 r ex, p = p1 ++ (l, d) :: p2 ∧ er = .visit r ex ∧ d.Faulty ln r ∧ ∀ q ∈ p1, ∀ r', ¬ q.2.Faulty ln r' := by
  induction p generalizing er with
  | nil => cases h
  | cons q p ih =>
    obtain ⟨l, d⟩ := q
    rw [Program.outs] at h
    cases hd : d.out ln l with
    | error er' =>
      rw [hd] at h
      cases h
      obtain ⟨r, ex, h1, h2⟩ := d.accuses ln l _ hd
      exact ⟨[], l, d, p, r, ex, rfl, h1, h2, by simp⟩
    | ok o =>
      rw [hd] at h
      cases ho : Program.outs ln p with
      | ok os => rw [ho] at h; cases h
      | error er' =>
        rw [ho] at h
        cases h
        obtain ⟨p1, l', d', p2, r, ex, rfl, h2, h3, h4⟩ := ih ho
        refine ⟨(l, d) :: p1, l', d', p2, r, ex, rfl, h2, h3, fun q hq r' hf => ?_⟩
        rcases List.mem_cons.mp hq with rfl | hq
        · exact Decl.faulty_fails hf o hd
        · exact h4 q hq r' hf

/-- **C83, the first fault.** If a document fails after its syntax is accepted, then the exception names a construct at
fault in the first declaration that has a fault at all. -/
theorem C83_first {text path tree} (h : createTree' text path = .ok tree) {P : Parser} {e : ApiErr}
    (he : P.parse text path = .error e) :
    ∃ t p1 l d p2 r ex, chosenText text path = .ok t ∧ Spells t (p1 ++ (l, d) :: p2) ∧ e = .visitError r ex ∧
      d.Faulty P.addLineNumbers r ∧ ∀ q ∈ p1, ∀ r', ¬ q.2.Faulty P.addLineNumbers r' := by
  rcases createTree'_cases text path with ⟨e, h1, h2⟩ | ⟨t, m, h1, h2, h3, h4⟩ | ⟨t, h1, h2, _, h3⟩ |
    ⟨t, tree', p, h1, h2, hl, h3, h4, h5⟩
  · rw [h] at h2; cases h2
  · rw [h] at h3; cases h3
  · rw [h] at h3; cases h3
  · rw [h] at h5
    cases h5
    have hp : P.parse text path = liftV (p.val P.addLineNumbers) := by
      rw [parse_eq, h]; simp only [Except.bind, bicepToJson_program h4]
    rw [hp, Program.val] at he
    cases ho : p.outs P.addLineNumbers with
    | ok os => rw [ho] at he; cases he
    | error er =>
      obtain ⟨p1, l, d, p2, r, ex, rfl, rfl, h6, h7⟩ := outs_first ho
      rw [ho] at he
      cases he
      exact ⟨t, p1, l, d, p2, r, ex, h1, h3, rfl, h6, h7⟩

/-! ### Documents that cannot fail, by their syntax alone -/

/-- an argument of `@minValue` that is never at fault -/
def MinArg : Expr → Prop
  | .object is => ∀ i ∈ is, i.key ≠ "operator"
  | .minus e => match e with
    | .int _ | .tru | .fls | .ident _ | .str _ | .multi _ | .array _ => True
    | _ => False
  | _ => True

/-- an argument of `@maxValue` that is never at fault -/
def MaxArg : Expr → Prop
  | .int _ | .tru | .fls => True
  | _ => False

/-- a body whose nested resources can always be taken out: only nested resources use the reserved key, and if a
nested resource says `depends_on`, then with a list -/
inductive TidyBody : Config → Prop where
  | loop {l} : TidyBody (.loop l)
  | cond {c e} : TidyBody (.cond c e)
  | obj {is} : (∀ i ∈ is, i.key = "__child_resource__" → ∃ l x b ex c, i = .child l x b ex c) →
      (∀ l x b ex c, Item.child l x b ex c ∈ is → TidyBody c) →
      (∀ l x b ex js, Item.child l x b ex (.obj js) ∈ is →
        ∀ j ∈ js, j.key = "depends_on" → ∃ k es, j = .pair k (.array es)) → TidyBody (.obj is)

/-- Nothing in the program is ever at fault: numerals of at most 4300 digits; every call of a known function has a number
of arguments this function accepts; conditions of loops are `if` with an argument, or no `if` and no object with a
key `function`; decorators have the argument they need; and the texts and bodies of declarations are in order. -/
structure Program.Plain (p : Program) : Prop where
  int : ∀ {d}, p.Has (.expr (.int d)) → d.1.length ≤ 4300
  call : ∀ {f es s a}, p.Has (.expr (.call f es)) → s ∈ signatures → String.ofList f.1 ∈ s.names →
    (s.name, a) ∈ arities → Accepts a es.length
  cond : ∀ {h c b}, p.Has (.loop (.mk h (some c) b)) →
    AsItIs c ∨ ∃ f e es, c = .call f (e :: es) ∧ String.ofList f.1 = "if"
  bare : ∀ {d n}, p.Has (.deco d) → d.arg = .none → n ∈ knownDecos → n ∉ flags → String.ofList d.name.1 ∉ decoNames n
  minValue : ∀ {d e}, p.Has (.deco d) → d.arg = some e → String.ofList d.name.1 ∈ decoNames "minValue" → MinArg e
  maxValue : ∀ {d e}, p.Has (.deco d) → d.arg = some e → String.ofList d.name.1 ∈ decoNames "maxValue" → MaxArg e
  scope : ∀ {l b}, (l, Decl.scope b) ∈ p →
    String.ofList b ∈ ["resourceGroup", "subscription", "managementGroup", "tenant"]
  type : ∀ {l ds x b ex c}, (l, Decl.resource ds x b ex c) ∈ p → b.count '@' = 1
  body : ∀ {l ds x b ex c}, (l, Decl.resource ds x b ex c) ∈ p → TidyBody c
  module : ∀ {l ds x b c}, (l, Decl.module ds x b c) ∈ p → ∃ ty de, ModuleRef b ty de

theorem body_adoptable {ln : Bool} {c : Config} (h : TidyBody c) :
    ∀ {d}, c.val ln = .ok (.dict d) → Adoptable d := by
  induction h with
  | @loop l =>
    intro d hd
    obtain ⟨hh, c, b⟩ := l
    rw [Config.val, Loop.val] at hd
    obtain ⟨_, _, hd⟩ := bind_ok' hd
    obtain ⟨_, _, hd⟩ := bind_ok' hd
    obtain ⟨_, _, hd⟩ := bind_ok' hd
    obtain ⟨_, _, hd⟩ := bind_ok' hd
    cases hd
    exact .none (by simp [dGet])
  | cond =>
    intro d hd
    rw [Config.val] at hd
    obtain ⟨_, _, hd⟩ := bind_ok' hd
    obtain ⟨_, _, hd⟩ := bind_ok' hd
    cases hd
    exact .none (by simp [dGet])
  | @obj is h1 _ h3 ih =>
    intro d hd
    rw [Config.val] at hd
    obtain ⟨ps, hps, hd⟩ := bind_ok' hd
    cases hd
    by_cases hex : ∃ i ∈ is, i.key = "__child_resource__"
    · obtain ⟨i, hi⟩ := lastItem_exists hex
      obtain ⟨v, hv, hg⟩ := items_last hps hi
      obtain ⟨a, b, rfl, hk, _⟩ := hi
      obtain ⟨l, x, ty, ex, c, rfl⟩ := h1 i (by simp) hk
      rw [Item.inner, Item.val] at hv
      cases hc : c.val ln with
      | error e => rw [hc] at hv; cases hv
      | ok w =>
        rw [hc] at hv
        simp only [bind, Except.bind, Except.map, Except.ok.injEq] at hv
        subst hv
        obtain ⟨d', rfl⟩ := config_dict hc
        have hm : Item.child l x ty ex c ∈ a ++ Item.child l x ty ex c :: b := by simp
        refine .child (n := .str (txt x.1)) (t := .str (txt ty)) (d := d') ?_ ?_ ?_ ?_ (ih l x ty ex c hm hc)
        · simp [Val.at?, Val.step?, hg, dGet]
        · simp [Val.at?, Val.step?, hg, dGet]
        · simp [Val.at?, Val.step?, hg, dGet]
        · intro y hy
          cases c with
          | obj js =>
            rw [Config.val] at hc
            obtain ⟨qs, hqs, hc⟩ := bind_ok' hc
            cases hc
            by_cases hdep : ∃ j ∈ js, j.key = "depends_on"
            · obtain ⟨j, hj⟩ := lastItem_exists hdep
              obtain ⟨v, hv, hg'⟩ := items_last hqs hj
              obtain ⟨a', b', rfl, hk', _⟩ := hj
              obtain ⟨k, es, rfl⟩ := h3 l x ty ex _ hm j (by simp) hk'
              rw [hy] at hg'
              cases hg'
              rw [Item.inner, Expr.val] at hv
              obtain ⟨vs, _, hv⟩ := bind_ok' hv
              cases hv
              exact ⟨vs, rfl⟩
            · rw [items_absent hqs fun i hi e => hdep ⟨i, hi, e⟩] at hy
              cases hy
          | loop l =>
            obtain ⟨hh, c, b⟩ := l
            rw [Config.val, Loop.val] at hc
            obtain ⟨_, _, hc⟩ := bind_ok' hc
            obtain ⟨_, _, hc⟩ := bind_ok' hc
            obtain ⟨_, _, hc⟩ := bind_ok' hc
            obtain ⟨_, _, hc⟩ := bind_ok' hc
            cases hc
            simp [dGet] at hy
          | cond =>
            rw [Config.val] at hc
            obtain ⟨_, _, hc⟩ := bind_ok' hc
            obtain ⟨_, _, hc⟩ := bind_ok' hc
            cases hc
            simp [dGet] at hy
    · exact .none (items_absent hps fun i hi e => hex ⟨i, hi, e⟩)

theorem label_ne_minus : ∀ o : BinOp, o.label ≠ "minus" := by
  intro o; cases o <;> decide

theorem minArg_ok {ln : Bool} {e : Expr} {w : Val} (h : MinArg e) (hw : e.val ln = .ok w) : ¬ BadMinimum w := by
  have nodict : (∀ d, w ≠ .dict d) → ¬ BadMinimum w := by
    rintro hd ⟨g, hg, _⟩
    cases w with
    | dict d => exact hd d rfl
    | _ => simp [Val.at?, Val.step?] at hg
  have nokey : ∀ d, w = .dict d → dGet "operator" d = .none → ¬ BadMinimum w := by
    rintro d rfl hd ⟨g, hg, _⟩
    simp [Val.at?, Val.step?, hd] at hg
  have other : ∀ s d, s ≠ "minus" → w = opVal s d → ¬ BadMinimum w := by
    rintro s d hs rfl ⟨g, hg, h⟩
    simp only [opVal, Val.at?, Val.step?, dGet, if_true, Option.bind_some, Option.some.injEq] at hg
    subst hg
    rcases h with h | ⟨⟨u, hu, hm⟩, _⟩
    · exact h _ rfl
    · simp only [Val.at?, Val.step?, dGet, if_true, Option.bind_some, Option.some.injEq] at hu
      subst hu
      simp [Val.eqStr, hs] at hm
  cases e with
  | null | tru | fls | ident | str | multi => rw [Expr.val] at hw; cases hw; exact nodict (by intro d e; cases e)
  | int d => rw [Expr.val] at hw; split at hw <;> cases hw; exact nodict (by intro d e; cases e)
  | array es => rw [Expr.val] at hw; obtain ⟨_, _, hw⟩ := bind_ok' hw; cases hw; exact nodict (by intro d e; cases e)
  | object is =>
    rw [Expr.val] at hw
    obtain ⟨ps, hps, hw⟩ := bind_ok' hw
    cases hw
    exact nokey _ rfl (items_absent hps h)
  | call f es =>
    rw [Expr.val] at hw
    obtain ⟨_, _, hw⟩ := bind_ok' hw
    obtain ⟨_, _, hw⟩ := bind_ok' hw
    cases hw
    exact nokey _ rfl (by simp [dGet])
  | bin o a b =>
    rw [Expr.val] at hw
    obtain ⟨_, _, hw⟩ := bind_ok' hw
    obtain ⟨_, _, hw⟩ := bind_ok' hw
    cases hw
    exact other _ _ (label_ne_minus o) rfl
  | not a =>
    rw [Expr.val] at hw
    obtain ⟨_, _, hw⟩ := bind_ok' hw
    cases hw
    exact other _ _ (by decide) rfl
  | cond a b c =>
    rw [Expr.val] at hw
    obtain ⟨_, _, hw⟩ := bind_ok' hw
    obtain ⟨_, _, hw⟩ := bind_ok' hw
    obtain ⟨_, _, hw⟩ := bind_ok' hw
    cases hw
    exact other _ _ (by decide) rfl
  | method a f es =>
    rw [Expr.val] at hw
    obtain ⟨_, _, hw⟩ := bind_ok' hw
    obtain ⟨_, _, hw⟩ := bind_ok' hw
    cases hw
    exact other _ _ (by decide) rfl
  | lambda v e =>
    rw [Expr.val] at hw
    obtain ⟨_, _, hw⟩ := bind_ok' hw
    obtain ⟨_, _, hw⟩ := bind_ok' hw
    cases hw
    exact nokey _ rfl (by simp [dGet])
  | lambdaN v1 v2 v3 vs e =>
    rw [Expr.val] at hw
    obtain ⟨_, _, hw⟩ := bind_ok' hw
    obtain ⟨_, _, hw⟩ := bind_ok' hw
    obtain ⟨_, _, hw⟩ := bind_ok' hw
    obtain ⟨_, _, hw⟩ := bind_ok' hw
    obtain ⟨_, _, hw⟩ := bind_ok' hw
    cases hw
    exact nokey _ rfl (by simp [dGet])
  | minus e =>
    rw [Expr.val] at hw
    obtain ⟨y, hy, hw⟩ := bind_ok' hw
    cases hw
    have hn : Negatable y := by
      cases e with
      | tru | fls | ident | str | multi => rw [Expr.val] at hy; cases hy; trivial
      | int d => rw [Expr.val] at hy; split at hy <;> cases hy; trivial
      | array es => rw [Expr.val] at hy; obtain ⟨_, _, hy⟩ := bind_ok' hy; cases hy; trivial
      | _ => exact h.elim
    rintro ⟨g, hg, h⟩
    simp only [opVal, Val.at?, Val.step?, dGet, if_true, Option.bind_some, Option.some.injEq] at hg
    subst hg
    rcases h with h | ⟨_, h⟩
    · exact h _ rfl
    · exact h y (by simp [Val.at?, Val.step?, dGet]) hn

theorem maxArg_ok {ln : Bool} {e : Expr} {w : Val} (h : MaxArg e) (hw : e.val ln = .ok w) : IntLike w := by
  cases e with
  | tru | fls => rw [Expr.val] at hw; cases hw; trivial
  | int d => rw [Expr.val] at hw; split at hw <;> cases hw; trivial
  | _ => exact h.elim

theorem Program.Plain.no_fault {p : Program} (h : p.Plain) (ln : Bool) (r : String) : ¬ p.Fault ln r := by
  rintro (⟨n, hn, hf⟩ | ⟨l, d, hd, hf⟩)
  · cases hf with
    | int hd => exact absurd (h.int hn) (Nat.not_le.mpr hd)
    | call hs hf ha hna => exact hna (h.call hn hs hf ha)
    | @condition hh c b w hw hbad =>
      rcases h.cond hn with hc | ⟨f, e, es, rfl, hf⟩
      · exact condition_ok (loopCondition_asItIs hc hw) hbad
      · rw [Expr.val] at hw
        obtain ⟨vs, hvs, hw⟩ := bind_ok' hw
        obtain ⟨data, hd, hw⟩ := bind_ok' hw
        cases hw
        have hd := inRule_ok hd
        rw [txt, hf, getFunction_unknown (fun s hs => (signature_type_ne_if s hs).2)] at hd
        cases hd
        rw [Expr.vals] at hvs
        obtain ⟨v, _, hvs⟩ := bind_ok' hvs
        obtain ⟨vs', _, hvs⟩ := bind_ok' hvs
        cases hvs
        exact condition_ok (loopCondition_if vs' v) hbad
    | noArgument ha hk hf hx => exact h.bare hn ha hk hf hx
    | minimum ha hx hw hbad => exact minArg_ok (h.minValue hn ha hx) hw hbad
    | maximum ha hx hw hbad => exact hbad (maxArg_ok (h.maxValue hn ha hx) hw)
  · cases hf with
    | scope hb => exact hb (h.scope hd)
    | type hb => exact hb (h.type hd)
    | nested hc hna => exact hna (body_adoptable (h.body hd) hc)
    | module hno => obtain ⟨ty, de, hr⟩ := h.module hd; exact hno ty de hr

/-- **C83, by syntax alone.** A document whose syntax is accepted and whose program is plain is parsed, with line numbers
and without. -/
theorem C83_plain {text path tree} (h : createTree' text path = .ok tree) :
    ∃ t p, chosenText text path = .ok t ∧ Spells t p ∧ (p.Plain → ∀ P : Parser, ∃ v, P.parse text path = .ok v) := by
  obtain ⟨t, p, h1, h2, h3⟩ := C83_exactly h
  exact ⟨t, p, h1, h2, fun hp P => (h3 P).1.mpr fun r => hp.no_fault _ r⟩

/-! Examples: the syntax is accepted in all of them. -/

/-- two faults: the first one is reported -/
example : (Parser.mk false).parse (some "param a int = first()\ntargetScope = 'x'\n") .none =
      .error (.visitError "function" .indexError) ∧
    (Parser.mk false).parse (some "targetScope = 'x'\nparam a int = first()\n") .none =
      .error (.visitError "scope" (.valueError "target scope is invalid: x")) :=
  ⟨eq_of_errIs (by decide +kernel), eq_of_errIs (by decide +kernel)⟩

/-- `depends_on` of a nested resource is not a list -/
example : (Parser.mk false).parse (some "resource a 'T@1' = {\n  resource b 'c' = {\n    depends_on: 'x'\n  }\n}\n") .none =
    .error (.visitError "resource" .attributeError) := eq_of_errIs (by decide +kernel)

/-- a filter without an argument -/
example : (Parser.mk false).parse (some "var a = [for x in y: if() {\n}]\n") .none =
    .error (.visitError "loop" .keyError) := eq_of_errIs (by decide +kernel)

/-- a condition that looks like a call but is not -/
example : (Parser.mk false).parse (some "var a = [for x in y: {\n  function: 1\n} {\n}]\n") .none =
    .error (.visitError "loop" .attributeError) := eq_of_errIs (by decide +kernel)

/-- a negative maximum -/
example : (Parser.mk false).parse (some "@maxValue(-1)\nparam a int\n") .none =
    .error (.visitError "decorator" .typeError) := eq_of_errIs (by decide +kernel)

/-- the negative of nothing -/
example : (Parser.mk false).parse (some "@minValue(-null)\nparam a int\n") .none =
    .error (.visitError "decorator" .typeError) := eq_of_errIs (by decide +kernel)

/-- two underscores in a row -/
example : (Parser.mk false).parse (some "@maxValue('1__0')\nparam a int\n") .none =
    .error (.visitError "decorator" (.valueError "")) := eq_of_errIs (by decide +kernel)

/-- one underscore, and blanks around -/
example : (Parser.mk false).parse (some "@maxValue(' 1_0 ')\nparam a int\n") .none =
    .ok (.dict [("globals", .dict [("scope", .dict [("value", .str "resourceGroup")])]),
      ("parameters", .dict [("a", .dict [("decorators", .list [.dict [("type", .str "max_value"), ("argument", .int 10)]]),
        ("type", .str "int"), ("default", .none)])])]) := eq_of_outIs (by decide +kernel)

/-- `int(' 1_0 ')` is accepted, `int('1__0')` is not -/
example : IntText " 1_0 " :=
  ⟨[' '], [], ['1', '_', '0'], [' '], 2, by decide, by decide, by decide, by simp; decide, by simp; decide, .inl rfl,
    .sep (d := 1) (by decide) (.one (d := 0) (by decide)), by decide⟩

/-- the fault of the third example, as the specification sees it: the value `{"function": 1}` -/
example : BadCondition (.dict [("function", .int 1)]) :=
  ⟨.int 1, rfl, .inl fun _ h => nomatch h⟩

theorem Part.inv {n k : Node} (h : Part n k) : k = n ∨ ∃ m, Part1 n m ∧ Part m k := by
  induction h with
  | refl => exact .inl rfl
  | step _ h1 ih =>
    rcases ih with rfl | ⟨m, h2, h3⟩
    · exact .inr ⟨_, h1, .refl⟩
    · exact .inr ⟨m, h2, .step h3 h1⟩

/-- the program `var a = first(-5)` is plain -/
example (x : Ident) (f : FunName) (hf : String.ofList f.1 = "first") (d : Digits) (hd : d.1 = ['5']) :
    Program.Plain [((1, 1), .var [] x .none (.expr (.call f [.minus (.int d)])))] := by
  have key : ∀ {n}, Program.Has [((1, 1), .var [] x .none (.expr (.call f [.minus (.int d)])))] n →
      n = .expr (.call f [.minus (.int d)]) ∨ n = .expr (.minus (.int d)) ∨ n = .expr (.int d) := by
    rintro n ⟨l, d', m, hd, hm, hp⟩
    simp only [List.mem_singleton, Prod.mk.injEq] at hd
    obtain ⟨-, rfl⟩ := hd
    cases hm with
    | varDeco h => simp at h
    | varExpr =>
      rcases hp.inv with rfl | ⟨_, h1, hp⟩
      · exact .inl rfl
      · cases h1 with
        | arg he =>
          simp only [List.mem_singleton] at he
          subst he
          rcases hp.inv with rfl | ⟨_, h1, hp⟩
          · exact .inr (.inl rfl)
          · cases h1
            rcases hp.inv with rfl | ⟨_, h1, hp⟩
            · exact .inr (.inr rfl)
            · cases h1
  constructor
  case int =>
    intro d' h
    rcases key h with h | h | h <;> cases h
    rw [hd]; decide
  case call =>
    intro g es s a h hs hg ha
    rcases key h with h | h | h <;> cases h
    rw [hf] at hg
    have h1 : ∀ s ∈ signatures, "first" ∈ s.names → ∀ q ∈ arities, q.1 = s.name → q.2 = (1, .none) := by decide +kernel
    have := h1 s hs hg _ ha rfl
    simp only at this
    subst this
    exact ⟨Nat.le_refl 1, fun hi h => nomatch h⟩
  case cond => intro _ _ _ h; rcases key h with h | h | h <;> cases h
  case bare => intro _ _ h; rcases key h with h | h | h <;> cases h
  case minValue => intro _ _ h; rcases key h with h | h | h <;> cases h
  case maxValue => intro _ _ h; rcases key h with h | h | h <;> cases h
  case scope => intro l b h; simp at h
  case type => intro l ds x b ex c h; simp at h
  case body => intro l ds x b ex c h; simp at h
  case module => intro l ds x b c h; simp at h

end Pycep
