import Verif.Props.Lines
import Verif.Spec.Written
/-
Every piece of a program is written in one stretch.
-/
namespace Pycep

theorem infix_cons {α} {a b : List α} {x : α} (h : a <:+: b) : a <:+: x :: b := h.trans (List.suffix_cons x b).isInfix
theorem infix_left {α} {a b c : List α} (h : a <:+: b) : a <:+: b ++ c := h.trans (List.prefix_append b c).isInfix
theorem infix_right {α} {a b c : List α} (h : a <:+: c) : a <:+: b ++ c := h.trans (List.suffix_append b c).isInfix

/-- searches for a stretch -/
syntax "inf" : tactic
macro_rules | `(tactic| inf) => `(tactic| first
  | exact List.infix_rfl
  | assumption
  | (apply infix_cons; inf)
  | (apply infix_left; inf)
  | (apply infix_right; inf))

/-- some stretch of `w` is a way to write `n` -/
def WrittenIn (n : Node) (w : List Tok) : Prop := ∃ w', w' <:+: w ∧ n.Syn w'

theorem WrittenIn.mono {n w w'} (h : WrittenIn n w) (hi : w <:+: w') : WrittenIn n w' := by
  obtain ⟨x, h1, h2⟩ := h
  exact ⟨x, h1.trans hi, h2⟩

theorem ESyn.written {b e w n} (h : ESyn b e w n) : WrittenIn (.expr e) w := ⟨w, List.infix_rfl, b, n, h⟩

theorem ESyn.inner {b e w n} (h : ESyn b e w n) : ∃ w' n', w' <:+: w ∧ ESyn false e w' n' := by
  cases b with
  | false => exact ⟨w, n, List.infix_rfl, h⟩
  | true =>
    cases h with
    | plain h => exact ⟨_, _, by inf, h⟩
    | paren _ h => exact ⟨_, _, by inf, h⟩
    | bang h => exact ⟨_, _, by inf, h⟩
    | parenBang _ h => exact ⟨_, _, by inf, h⟩

theorem ETail.mem {es w n} : ETail es w n → ∀ e ∈ es, WrittenIn (.expr e) w
  | .nil => fun _ h => by simp at h
  | .snoc h1 _ h2 _ => fun e h => by
    rcases List.mem_append.mp h with h | h
    · exact (ETail.mem h1 e h).mono (by inf)
    · obtain rfl := List.mem_singleton.mp h
      exact h2.written.mono (by inf)

theorem FTail.mem {es w n} : FTail es w n → ∀ e ∈ es, WrittenIn (.expr e) w
  | .nil => fun _ h => by simp at h
  | .snoc h1 _ _ h2 _ => fun e h => by
    rcases List.mem_append.mp h with h | h
    · exact (FTail.mem h1 e h).mono (by inf)
    · obtain rfl := List.mem_singleton.mp h
      exact h2.written.mono (by inf)

theorem AltTail.mem {es w n} : AltTail es w n → ∀ e ∈ es, WrittenIn (.expr e) w
  | .nil => fun _ h => by simp at h
  | .snoc h1 _ h2 _ => fun e h => by
    rcases List.mem_append.mp h with h | h
    · exact (AltTail.mem h1 e h).mono (by inf)
    · obtain rfl := List.mem_singleton.mp h
      exact h2.written.mono (by inf)

theorem Elems.mem {es w n} : Elems es w n → ∀ e ∈ es, WrittenIn (.expr e) w
  | .nil => fun _ h => by simp at h
  | .snoc h1 h2 h3 _ _ => fun e h => by
    rcases List.mem_append.mp h with h | h
    · exact (Elems.mem h1 e h).mono (by inf)
    · rcases List.mem_cons.mp h with rfl | h
      · exact h2.written.mono (by inf)
      · exact (h3.mem e h).mono (by inf)

theorem MArgs.mem {es w n} (hm : MArgs es w n) {e} (h : some e ∈ es) : WrittenIn (.expr e) w := by
  cases hm with
  | empty => simp at h
  | one h1 =>
    simp only [List.mem_cons, Option.some.injEq, reduceCtorEq, List.not_mem_nil, or_false] at h
    subst h
    exact h1.written
  | @many a es e' w1 w2 n h1 h2 =>
    have : e ∈ a :: es ++ [e'] := by
      obtain ⟨x, hx, hy⟩ := List.mem_map.mp h
      cases hy; exact hx
    rw [List.cons_append] at this
    rcases List.mem_cons.mp this with rfl | h
    · exact h1.written.mono (by inf)
    · exact (h2.mem _ h).mono (by inf)
  | @lead es e' w n h1 =>
    have : e ∈ es ++ [e'] := by
      obtain ⟨x, hx, hy⟩ := List.mem_map.mp h
      cases hy; exact hx
    exact h1.mem _ this

theorem PairSyn.written {i w n} (h : PairSyn i w n) : WrittenIn i.node w := by
  cases h with
  | expr _ _ h => exact h.written.mono (by inf)
  | exprOpt _ _ h => exact h.written.mono (by inf)
  | loop _ _ h => exact ⟨_, by inf, _, h⟩
  | loopOpt _ _ h => exact ⟨_, by inf, _, h⟩

theorem ChildSyn.written {i w n} (h : ChildSyn i w n) : WrittenIn i.node w := by
  cases h with
  | mk _ _ _ _ _ h => exact ⟨_, by inf, _, h⟩

theorem PTail.mem {is w n} : PTail is w n → ∀ i ∈ is, WrittenIn i.node w
  | .nil => fun _ h => by simp at h
  | .snoc h1 _ h2 => fun e h => by
    rcases List.mem_append.mp h with h | h
    · exact (PTail.mem h1 e h).mono (by inf)
    · obtain rfl := List.mem_singleton.mp h
      exact h2.written.mono (by inf)

theorem Items.mem {is w n} : Items is w n → ∀ i ∈ is, WrittenIn i.node w
  | .nil => fun _ h => by simp at h
  | .pairs h1 h2 h3 _ => fun e h => by
    rcases List.mem_append.mp h with h | h
    · exact (Items.mem h1 e h).mono (by inf)
    · rcases List.mem_cons.mp h with rfl | h
      · exact h2.written.mono (by inf)
      · exact (h3.mem e h).mono (by inf)
  | .child h1 h2 _ => fun e h => by
    rcases List.mem_append.mp h with h | h
    · exact (Items.mem h1 e h).mono (by inf)
    · obtain rfl := List.mem_singleton.mp h
      exact h2.written.mono (by inf)

theorem ObjSyn.mem {is w n} (h : ObjSyn is w n) : ∀ i ∈ is, WrittenIn i.node w := by
  cases h with
  | mk _ _ h => exact fun i hi => (h.mem i hi).mono (by inf)

theorem TypeTail.mem {ds w} : TypeTail ds w → ∀ d ∈ ds, WrittenIn (.type d) w
  | .nil => fun _ h => by simp at h
  | .snoc h1 _ h2 => fun e h => by
    rcases List.mem_append.mp h with h | h
    · exact (TypeTail.mem h1 e h).mono (by inf)
    · obtain rfl := List.mem_singleton.mp h
      exact ⟨_, by inf, h2⟩

theorem DecosSyn.mem {ds w} : DecosSyn ds w → ∀ d ∈ ds, WrittenIn (.deco d) w
  | .nil => fun _ h => by simp at h
  | .snoc h1 h2 => fun e h => by
    rcases List.mem_append.mp h with h | h
    · exact (DecosSyn.mem h1 e h).mono (by inf)
    · obtain rfl := List.mem_singleton.mp h
      exact ⟨_, by inf, h2⟩

/-- the pieces of a piece -/
theorem Part1.written {n m : Node} (hp : Part1 n m) {w} (h : n.Syn w) : WrittenIn m w := by
  have hx : ∀ {e}, n = .expr e → ∃ w' n', w' <:+: w ∧ ESyn false e w' n' := by
    rintro e rfl
    obtain ⟨b, n, h⟩ := h
    exact h.inner
  cases hp with
  | elem hm =>
    obtain ⟨w', n', hi, h⟩ := hx rfl
    cases h with
    | array _ _ h => exact ((h.mem _ hm).mono (by inf)).mono hi
  | member hm =>
    obtain ⟨w', n', hi, h⟩ := hx rfl
    cases h with
    | object h => exact (h.mem _ hm).mono hi
  | arg hm =>
    obtain ⟨w', n', hi, h⟩ := hx rfl
    cases h with
    | call _ h =>
      cases h with
      | args _ _ h1 h2 =>
        rcases List.mem_cons.mp hm with rfl | hm
        · exact (h1.written.mono (by inf)).mono hi
        · exact ((h2.mem _ hm).mono (by inf)).mono hi
      | noArg _ _ h => exact ((h.mem _ hm).mono (by inf)).mono hi
  | left =>
    obtain ⟨w', n', hi, h⟩ := hx rfl
    cases h with
    | bin _ h => exact (h.written.mono (by inf)).mono hi
    | safe h => exact (h.written.mono (by inf)).mono hi
    | index h => exact (h.written.mono (by inf)).mono hi
    | safeIndex h => exact (h.written.mono (by inf)).mono hi
  | right =>
    obtain ⟨w', n', hi, h⟩ := hx rfl
    cases h with
    | bin _ _ _ h => exact (h.written.mono (by inf)).mono hi
    | safe _ _ _ h => exact (h.written.mono (by inf)).mono hi
    | index _ _ h => exact (h.written.mono (by inf)).mono hi
    | safeIndex _ _ _ h => exact (h.written.mono (by inf)).mono hi
  | not =>
    obtain ⟨w', n', hi, h⟩ := hx rfl
    cases h with
    | not _ h => exact (h.written.mono (by inf)).mono hi
  | minus =>
    obtain ⟨w', n', hi, h⟩ := hx rfl
    cases h with
    | minus _ h => exact (h.written.mono (by inf)).mono hi
  | cond =>
    obtain ⟨w', n', hi, h⟩ := hx rfl
    cases h with
    | cond h => exact (h.written.mono (by inf)).mono hi
  | condT =>
    obtain ⟨w', n', hi, h⟩ := hx rfl
    cases h with
    | cond _ _ h => exact (h.written.mono (by inf)).mono hi
  | condF =>
    obtain ⟨w', n', hi, h⟩ := hx rfl
    cases h with
    | cond _ _ _ _ h => exact (h.written.mono (by inf)).mono hi
  | method =>
    obtain ⟨w', n', hi, h⟩ := hx rfl
    cases h with
    | method h => exact (h.written.mono (by inf)).mono hi
  | methodArg hm =>
    obtain ⟨w', n', hi, h⟩ := hx rfl
    cases h with
    | method _ _ _ _ h => exact ((h.mem hm).mono (by inf)).mono hi
  | lambdaV =>
    obtain ⟨w', n', hi, h⟩ := hx rfl
    cases h with
    | lambda h => exact (h.written.mono (by inf)).mono hi
  | lambdaB =>
    obtain ⟨w', n', hi, h⟩ := hx rfl
    cases h with
    | lambda _ _ h => exact (h.written.mono (by inf)).mono hi
  | lambdaNV hm =>
    obtain ⟨w', n', hi, h⟩ := hx rfl
    cases h with
    | lambdaN _ h1 _ h2 h3 =>
      rcases List.mem_cons.mp hm with rfl | hm
      · exact (h1.written.mono (by inf)).mono hi
      · rcases List.mem_cons.mp hm with rfl | hm
        · exact (h2.written.mono (by inf)).mono hi
        · exact ((h3.mem _ hm).mono (by inf)).mono hi
  | lambdaNB =>
    obtain ⟨w', n', hi, h⟩ := hx rfl
    cases h with
    | lambdaN _ _ _ _ _ _ _ h => exact (h.written.mono (by inf)).mono hi
  | loopHead =>
    obtain ⟨n, h⟩ := h
    cases h with
    | plain _ _ _ h => exact ⟨_, by inf, _, h⟩
    | filter _ _ _ h => exact ⟨_, by inf, _, h⟩
  | loopCond =>
    obtain ⟨n, h⟩ := h
    cases h with
    | filter _ _ _ _ _ h => exact h.written.mono (by inf)
  | loopBody =>
    obtain ⟨n, h⟩ := h
    cases h with
    | plain _ _ _ _ _ h => exact h.written.mono (by inf)
    | filter _ _ _ _ _ _ h => exact h.written.mono (by inf)
  | headArr =>
    obtain ⟨n, h⟩ := h
    cases h with
    | arr _ _ h => exact h.written.mono (by inf)
  | headIdx =>
    obtain ⟨n, h⟩ := h
    cases h with
    | arrIdx _ _ _ _ _ _ h => exact h.written.mono (by inf)
  | headObj =>
    obtain ⟨n, h⟩ := h
    cases h with
    | obj _ _ _ _ h => exact h.written.mono (by inf)
  | configMember hm =>
    obtain ⟨n, h⟩ := h
    cases h with
    | obj h => exact h.mem _ hm
  | configLoop =>
    obtain ⟨n, h⟩ := h
    cases h with
    | loop h => exact ⟨_, by inf, _, h⟩
  | configCond =>
    obtain ⟨n, h⟩ := h
    cases h with
    | cond _ _ _ h => exact h.written.mono (by inf)
  | configBody =>
    obtain ⟨n, h⟩ := h
    cases h with
    | cond _ _ _ _ _ h => exact h.written.mono (by inf)
  | @decoArg d e hm =>
    have h : DecoSyn d w := h
    cases h with
    | noArg => cases hm
    | arg _ _ _ _ h' => cases hm; exact h'.written.mono (by inf)

theorem Part.written {n m : Node} (hp : Part n m) {w} (h : n.Syn w) : WrittenIn m w := by
  induction hp with
  | refl => exact ⟨w, List.infix_rfl, h⟩
  | step _ h1 ih =>
    obtain ⟨w', hi, h'⟩ := ih
    exact (h1.written h').mono hi

theorem LastItem.mem {is k i} (h : LastItem is k i) : i ∈ is := by
  obtain ⟨a, b, rfl, _⟩ := h
  simp

theorem Suffixes.prev {k w} (h : Suffixes (k + 1) w) : ∃ w', w' <+: w ∧ Suffixes k w' := by
  cases h with
  | succ h => exact ⟨_, List.prefix_append _ _, h⟩

/-- the pieces of a piece that are reported -/
theorem Place1.written {n m : Node} {π} (hp : Place1 n π m) {w} (h : n.Syn w) : WrittenIn m w := by
  cases hp with
  | elem hm => exact Part1.written (.elem (List.mem_of_getElem? hm)) h
  | member hm => exact Part1.written (.member hm.mem) h
  | memberLoop hm => exact Part1.written (.member hm.mem) h
  | arg hm => exact Part1.written (.arg (List.mem_of_getElem? hm)) h
  | left => exact Part1.written .left h
  | right => exact Part1.written .right h
  | not => exact Part1.written .not h
  | minus => exact Part1.written .minus h
  | cond => exact Part1.written .cond h
  | condT => exact Part1.written .condT h
  | condF => exact Part1.written .condF h
  | method => exact Part1.written .method h
  | lambda => exact Part1.written .lambdaB h
  | lambdaN => exact Part1.written .lambdaNB h
  | loopHead => exact Part1.written .loopHead h
  | @loopFilter _ _ _ c es => exact Part.written (.step (.step .refl .loopCond) (.arg (List.mem_cons_self ..))) h
  | loopCond => exact Part1.written .loopCond h
  | loopBody => exact Part1.written .loopBody h
  | headArr => exact Part1.written .headArr h
  | headIdx => exact Part1.written .headIdx h
  | configMember hm => exact Part1.written (.configMember hm.mem) h
  | configMemberLoop hm => exact Part1.written (.configMember hm.mem) h
  | configLoop => exact Part1.written .configLoop h
  | configCond => exact Part1.written .configCond h
  | configBody => exact Part1.written .configBody h
  | @typeItem b k =>
    have h : TypeSyn (.mk b (k + 1)) w := h
    cases h with
    | mk h1 h2 =>
      obtain ⟨w', ⟨x, rfl⟩, h3⟩ := h2.prev
      exact ⟨_, ⟨[], x, by simp⟩, .mk h1 h3⟩
  | @member1 d1 d2 ds =>
    have h : TypeSyn (.mk (.union d1 d2 ds) 0) w := h
    cases h with
    | mk h1 h2 =>
      cases h1 with
      | union _ h' => exact ⟨_, by inf, h'⟩
  | @member2 d1 d2 ds =>
    have h : TypeSyn (.mk (.union d1 d2 ds) 0) w := h
    cases h with
    | mk h1 h2 =>
      cases h1 with
      | union _ _ h' => exact (h'.mem _ (List.mem_cons_self ..)).mono (by inf)
  | @memberN d1 d2 ds d i hm =>
    have h : TypeSyn (.mk (.union d1 d2 ds) 0) w := h
    cases h with
    | mk h1 h2 =>
      cases h1 with
      | union _ _ h' => exact (h'.mem _ (List.mem_cons_of_mem _ (List.mem_of_getElem? hm))).mono (by inf)

theorem Place.written {n m : Node} {π} (hp : Place n π m) {w} (h : n.Syn w) : WrittenIn m w := by
  induction hp with
  | refl => exact ⟨w, List.infix_rfl, h⟩
  | step _ h1 ih =>
    obtain ⟨w', hi, h'⟩ := ih
    exact (h1.written h').mono hi

/-- the pieces of a declaration -/
theorem DeclPart1.written {d : Decl} {m : Node} (hp : DeclPart1 d m) {w n} (h : DeclSyn d w n) : WrittenIn m w := by
  cases hp with
  | extension hm =>
    cases h with
    | extension _ _ h =>
      cases h with
      | yes _ h => exact (h.mem _ hm).mono (by inf)
  | paramDeco hm => cases h with | param h => exact (h.mem _ hm).mono (by inf)
  | paramDefault =>
    cases h with
    | param _ _ _ _ _ h =>
      cases h with
      | yes _ h => exact h.written.mono (by inf)
  | varDeco hm => cases h with | var h => exact (h.mem _ hm).mono (by inf)
  | varExpr =>
    cases h with
    | var _ _ _ _ _ h =>
      cases h with
      | expr h => exact h.written.mono (by inf)
  | varLoop =>
    cases h with
    | var _ _ _ _ _ h =>
      cases h with
      | loop h => exact ⟨_, by inf, _, h⟩
  | outDeco hm => cases h with | output h => exact (h.mem _ hm).mono (by inf)
  | outExpr =>
    cases h with
    | output _ _ _ _ _ _ h =>
      cases h with
      | expr h => exact h.written.mono (by inf)
  | outLoop =>
    cases h with
    | output _ _ _ _ _ _ h =>
      cases h with
      | loop h => exact ⟨_, by inf, _, h⟩
  | resDeco hm => cases h with | resource h => exact (h.mem _ hm).mono (by inf)
  | resConfig => cases h with | resource _ _ _ _ _ _ h => exact ⟨_, by inf, _, h⟩
  | modDeco hm => cases h with | module h => exact (h.mem _ hm).mono (by inf)
  | modConfig => cases h with | module _ _ _ _ _ h => exact ⟨_, by inf, _, h⟩
  | typDeco hm => cases h with | typ h => exact (h.mem _ hm).mono (by inf)
  | typExpr hm =>
    cases h with
    | typ _ _ _ _ h1 h2 =>
      rcases List.mem_cons.mp hm with rfl | hm
      · exact h1.written.mono (by inf)
      · exact (h2.mem _ hm).mono (by inf)
  | funcDeco hm => cases h with | func h => exact (h.mem _ hm).mono (by inf)
  | funcBody => cases h with | func _ _ _ _ _ _ _ _ h => exact h.written.mono (by inf)

/-- the pieces of a declaration that are reported -/
theorem DeclPlace1.written {d : Decl} {m : Node} {κ} (hp : DeclPlace1 d κ m) {w n} (h : DeclSyn d w n) :
    WrittenIn m w := by
  have two : ∀ {n' m : Node}, DeclPart1 d n' → Part1 n' m → WrittenIn m w := fun h1 h2 => by
    obtain ⟨w', hi, h'⟩ := h1.written h
    exact (h2.written h').mono hi
  cases hp with
  | paramDeco hm => exact DeclPart1.written (.paramDeco (List.mem_of_getElem? hm)) h
  | paramType => cases h with | param _ _ _ h => exact ⟨_, by inf, h⟩
  | paramDefault => exact DeclPart1.written .paramDefault h
  | varDeco hm => exact DeclPart1.written (.varDeco (List.mem_of_getElem? hm)) h
  | varType =>
    cases h with
    | var _ _ _ h =>
      cases h with
      | yes h => exact ⟨_, by inf, h⟩
  | varExpr => exact DeclPart1.written .varExpr h
  | varLoop => exact DeclPart1.written .varLoop h
  | outDeco hm => exact DeclPart1.written (.outDeco (List.mem_of_getElem? hm)) h
  | outType => cases h with | output _ _ _ h => exact ⟨_, by inf, h⟩
  | outExpr => exact DeclPart1.written .outExpr h
  | outLoop => exact DeclPart1.written .outLoop h
  | resDeco hm => exact DeclPart1.written (.resDeco (List.mem_of_getElem? hm)) h
  | resMember hm => exact two .resConfig (.configMember hm.mem)
  | resMemberLoop hm => exact two .resConfig (.configMember hm.mem)
  | resLoop => exact two .resConfig .configLoop
  | resCond => exact DeclPart1.written .resConfig h
  | modDeco hm => exact DeclPart1.written (.modDeco (List.mem_of_getElem? hm)) h
  | modConfig => exact DeclPart1.written .modConfig h
  | typDeco hm => exact DeclPart1.written (.typDeco (List.mem_of_getElem? hm)) h
  | typExpr => exact DeclPart1.written (.typExpr (List.mem_cons_self ..)) h
  | funcDeco hm => exact DeclPart1.written (.funcDeco (List.mem_of_getElem? hm)) h
  | funcType => cases h with | func _ _ _ _ _ _ h => exact ⟨_, by inf, h⟩
  | funcBody => exact DeclPart1.written .funcBody h
  | extConfig =>
    cases h with
    | extension _ _ h =>
      cases h with
      | yes _ h => exact ⟨_, by inf, _, .obj h⟩

theorem ProgSyn.mem {p w n} (h : ProgSyn p w n) {q} (hq : q ∈ p) :
    ∃ w' n', w' <:+: w ∧ DeclSyn q.2 w' n' ∧ LinesOf q.1 w' := by
  induction h with
  | nil => simp at hq
  | @decl p l d w1 w2 n _ h1 h2 ih =>
    rcases List.mem_append.mp hq with hq | hq
    · obtain ⟨w', n', hi, h⟩ := ih hq
      exact ⟨w', n', infix_left hi, h⟩
    · obtain rfl := List.mem_singleton.mp hq
      exact ⟨w2, n, infix_right List.infix_rfl, h1, h2⟩
  | nl _ _ ih =>
    obtain ⟨w', n', hi, h⟩ := ih hq
    exact ⟨w', n', infix_left hi, h⟩

/-- the bodies of a chain of nested resources are pieces of the outermost body -/
theorem Chain.part {c rs} (h : Chain c rs) : ∀ {i : Nat} {r : Nested}, rs[i]? = some r → Part (.config c) (.config r.config) := by
  have trans : ∀ {a b c : Node}, Part a b → Part b c → Part a c := by
    intro a b c h1 h2
    induction h2 with
    | refl => exact h1
    | step _ h ih => exact .step ih h
  induction h with
  | nil => intro i r h; simp at h
  | @cons c r0 rs h1 _ ih =>
    intro i r h
    obtain ⟨is, rfl, hl⟩ := h1
    have h0 : Part (.config (.obj is)) (.config r0.config) := .step .refl (.configMember (i := r0.item) hl.mem)
    cases i with
    | zero => simp only [List.getElem?_cons_zero, Option.some.injEq] at h; subst h; exact h0
    | succ i => exact trans h0 (ih (by simpa using h))

/-- **Every reported piece is written in one stretch.** -/
theorem Program.At.written {p : Program} {s n : String} {π : List PStep} {m : Node} (ha : p.At s n π m) {w t}
    (h : ProgSyn p w t) : WrittenIn m w := by
  have nest : ∀ {n x b rs i} {r : Nested}, NestedReported p n x b rs i r → WrittenIn (.config r.config) w := by
    rintro n x b rs i r ⟨before, l, ds, ex, c, later, rfl, hc, hr, _⟩
    obtain ⟨w', n', hi, hd, _⟩ := h.mem (q := (l, .resource ds x b ex c)) (by simp)
    obtain ⟨w2, hi2, h2⟩ := DeclPart1.written .resConfig hd
    exact (((hc.part hr).written h2).mono hi2).mono hi
  have then_ : ∀ {n m : Node} {π}, WrittenIn n w → Place n π m → WrittenIn m w := by
    rintro n m π ⟨w', hi, h'⟩ hp
    exact (hp.written h').mono hi
  have part_ : ∀ {n m : Node}, WrittenIn n w → Part1 n m → WrittenIn m w := by
    rintro n m ⟨w', hi, h'⟩ hp
    exact (hp.written h').mono hi
  cases ha with
  | @own _ _ l d κ k π _ hr hd hp =>
    obtain ⟨a, b, rfl, _⟩ := hr
    obtain ⟨w', n', hi, h', _⟩ := h.mem (q := (l, d)) (by simp)
    exact then_ ((hd.written h').mono hi) hp
  | nested hn hc hl _ _ hp =>
    have := nest hn
    rw [hc] at this
    exact then_ (part_ this (.configMember hl.mem)) hp
  | nestedLoop hn hc hl _ _ hp =>
    have := nest hn
    rw [hc] at this
    exact then_ (part_ this (.configMember hl.mem)) hp
  | nestedFor hn hc hp _ =>
    have := nest hn
    rw [hc] at this
    exact then_ (part_ this .configLoop) hp
  | nestedCond hn hc hp _ =>
    have := nest hn
    rw [hc] at this
    exact then_ this hp

theorem Program.Has.written {p : Program} {m : Node} (ha : p.Has m) {w t} (h : ProgSyn p w t) : WrittenIn m w := by
  obtain ⟨l, d, m', hm, h1, h2⟩ := ha
  obtain ⟨w', n', hi, hd, _⟩ := h.mem hm
  obtain ⟨w2, hi2, h3⟩ := h1.written hd
  exact ((h2.written h3).mono hi2).mono hi

end Pycep
