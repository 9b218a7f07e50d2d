import Verif.Proofs.RenderGood
/-
The tokens of the canonical text of a program are a way to write the program, up to line numbers.
-/
namespace Pycep

/-- type and text of a token -/
def Tok.lexeme (u : Tok) : Lexeme := (u.type, u.text)

/-- the tokens have the given types and texts -/
def Sh (w : List Tok) (v : List Lexeme) : Prop := w.map Tok.lexeme = v

theorem sh_nil {w} : Sh w [] ↔ w = [] := by simp [Sh]
theorem sh_cons {w x v} : Sh w (x :: v) ↔ ∃ u w', w = u :: w' ∧ u.lexeme = x ∧ Sh w' v := by
  unfold Sh
  rw [List.map_eq_cons_iff]
theorem sh_append {w a b} : Sh w (a ++ b) ↔ ∃ w1 w2, w = w1 ++ w2 ∧ Sh w1 a ∧ Sh w2 b := by
  unfold Sh
  rw [List.map_eq_append_iff]

theorem sh_place : ∀ (w : List Lexeme) (l : Nat), Sh (place l w) w
  | [], _ => rfl
  | (t, x) :: w, l => by
    unfold Sh place
    rw [List.map_cons, sh_place w]
    rfl

theorem kw_of {u : Tok} {t : Nat} {s : String} (h : u.lexeme = kw t) (hs : fixedText t = some s) : Kw s u := by
  have h1 : u.type = t := congrArg Prod.fst h
  have h2 : u.text = fixedChars t := congrArg Prod.snd h
  refine ⟨by rw [h1]; exact hs, ?_⟩
  rw [h2]
  unfold fixedText at hs
  unfold fixedChars
  cases ht : term? t with
  | none => rw [ht] at hs; cases hs
  | some d =>
    rw [ht] at hs
    simp only [Option.bind_some] at hs
    simp [hs]

theorem type_of {u : Tok} {t : Nat} {x : List Char} (h : u.lexeme = (t, x)) : u.type = t ∧ u.text = x := by
  obtain ⟨ty, tx, l, e⟩ := u
  cases h; exact ⟨rfl, rfl⟩

theorem lex_type {u : Tok} {t : Nat} (h : u.lexeme = kw t) : u.type = t := (type_of h).1

/-- tokens after which nothing goes on -/
def ends : List Nat := [T.RPAR, T.RSQB, T.COMMA, T.COLON, T._CPP_COMMENT_NL, T.VBAR, T.RBRACE]

theorem ends_ok : ∀ t ∈ ends, NoInfix t ∧ NoBang t := by
  unfold NoInfix NoBang; decide +kernel

/-- tokens other than `!` that may begin or follow an operand -/
def others : List Nat := ends ++ [T.LPAR, T.NULL, T.TRUE, T.FALSE, T.INT, T.STRING, T.QUOTED_INTERPOLATION,
  T.MULTI_LINE_STRING, T.LSQB, T.LBRACE, T.FUNCTION, T.QMARK, T.DOT, T.__ANON_0]

theorem others_ok : ∀ t ∈ others, NoBang t := by
  unfold NoBang; decide +kernel

theorem op_ok (op : BinOp) : NoBang op.token ∧ (∀ s, op.sign = some s → fixedText op.token = some s) ∧
    (op.sign = .none → op = .index) := by
  refine ⟨?_, ?_, ?_⟩
  · unfold NoBang; cases op <;> decide +kernel
  · cases op <;> (intro s hs; cases hs) <;> decide +kernel
  · cases op <;> simp [BinOp.sign]

variable {β : Styles}

theorem wrap_head (π : Spot) (b : Style) (e : Expr) (s : Bool) (hs : s = true → e.simple = true) :
    ∃ u w, wrap s b (e.toks β π) = u :: w ∧ NoBang u.1 := by
  unfold wrap
  split
  case isFalse => exact ⟨_, _, rfl, others_ok T.LPAR (by decide)⟩
  case isTrue h =>
    simp only [Bool.and_eq_true] at h
    have hs := hs h.1
    cases e with
    | null => exact ⟨_, _, rfl, others_ok T.NULL (by decide)⟩
    | tru => exact ⟨_, _, rfl, others_ok T.TRUE (by decide)⟩
    | fls => exact ⟨_, _, rfl, others_ok T.FALSE (by decide)⟩
    | int d => exact ⟨_, _, rfl, others_ok T.INT (by decide)⟩
    | ident x => exact ⟨_, _, rfl, others_ok T.STRING (by decide)⟩
    | str b => exact ⟨_, _, rfl, others_ok T.QUOTED_INTERPOLATION (by decide)⟩
    | multi b => exact ⟨_, _, rfl, others_ok T.MULTI_LINE_STRING (by decide)⟩
    | array es => exact ⟨_, _, rfl, others_ok T.LSQB (by decide)⟩
    | object is => exact ⟨_, _, rfl, others_ok T.LBRACE (by decide)⟩
    | call f es => exact ⟨_, _, rfl, others_ok T.FUNCTION (by decide)⟩
    | _ => cases hs

theorem wrap_next {π : Spot} {b : Style} {e : Expr} {w} (h : Sh w (wrap e.simple b (e.toks β π))) (w' : List Tok) (n : Nat) :
    NoBang (nextT (w ++ w') n) := by
  obtain ⟨u, v, hv, hn⟩ := wrap_head (β := β) π b e e.simple id
  rw [hv, sh_cons] at h
  obtain ⟨u', w1, rfl, hu, _⟩ := h
  show NoBang u'.type
  rw [(type_of hu).1]; exact hn

/-! ### Lists in the order in which they are written -/

theorem ETail.cons {e u w} (hu : Kw "," u) (he : ∀ n, NoBang n → ESyn true e w n) (hb : ∀ t, fixedText t = some "," → NoInfix t ∧ NoBang t) :
    ∀ {es w2 n}, ETail es w2 n → NoInfix n → NoBang n → ETail (e :: es) (u :: (w ++ w2)) n
  | _, _, _, .nil, h1, h2 => by simpa using ETail.snoc (w1 := []) .nil hu (he _ h2) h1
  | _, _, _, .snoc h hu' he' hn, h1, _ => by
    have := ETail.snoc (ETail.cons hu he hb h (hb _ hu'.1).1 (hb _ hu'.1).2) hu' he' hn
    simpa using this

theorem FTail.cons {e u w} (hu : Kw "," u) (he : ∀ n, NoBang n → ESyn true e w n) (hb : ∀ t, fixedText t = some "," → NoInfix t ∧ NoBang t) :
    ∀ {es w2 n}, FTail es w2 n → NoInfix n → NoBang n → FTail (e :: es) (u :: (w ++ w2)) n
  | _, _, _, .nil, h1, h2 => by simpa using FTail.snoc (w1 := []) (w2 := []) .nil hu (.inl rfl) (he _ h2) h1
  | _, _, _, .snoc h hu' ho he' hn, h1, _ => by
    have := FTail.snoc (FTail.cons hu he hb h (hb _ hu'.1).1 (hb _ hu'.1).2) hu' ho he' hn
    simpa using this

theorem comma_ok {t : Nat} (h : fixedText t = some ",") : NoInfix t ∧ NoBang t := by
  unfold NoInfix NoBang
  rw [h]; decide

theorem Items.append {is w1} : ∀ {is' w2 n}, Items is' w2 n → Items is w1 (nextT w2 n) →
    Items (is ++ is') (w1 ++ w2) n
  | _, _, _, .nil, h => by simpa [nextT] using h
  | _, _, _, .pairs hi hp ht hb, h => by
    have := Items.pairs (Items.append hi (by rwa [nextT_append] at h)) hp ht hb
    simpa using this
  | _, _, _, .child hi hc hb, h => by
    have := Items.child (Items.append hi (by rwa [nextT_append] at h)) hc hb
    simpa using this

/-! ### Expressions -/

/-- the token list is a way to write the expression, apart from line numbers -/
def WaysE (e : Expr) (w : List Tok) : Prop :=
  ∃ e', e'.bare = e.bare ∧ ∀ n, (e.simple = true ∨ NoInfix n ∧ NoBang n) → ESyn false e' w n

theorem wrap_syn {π : Spot} {b : Style} {e : Expr} (h : ∀ w, Sh w (e.toks β π) → WaysE e w) (s : Bool)
    (hs : s = true → e.simple = true) :
    ∀ w, Sh w (wrap s b (e.toks β π)) → ∃ e', e'.bare = e.bare ∧ ∀ n, NoBang n → ESyn true e' w n := by
  intro w hw
  unfold wrap at hw
  rw [sh_append] at hw
  obtain ⟨w0, wb, rfl, hw, hb⟩ := hw
  have hb : wb = [] ∨ ∃ v, wb = [v] ∧ Kw "!" v := by
    split at hb
    · simp only [sh_cons, sh_nil] at hb
      obtain ⟨v, _, rfl, hv, rfl⟩ := hb
      exact .inr ⟨v, rfl, kw_of hv (by decide +kernel)⟩
    · exact .inl (sh_nil.mp hb)
  split at hw
  case isTrue ht =>
    simp only [Bool.and_eq_true] at ht
    obtain ⟨e', h1, h2⟩ := h w0 hw
    refine ⟨e', h1, fun n hn => ?_⟩
    rcases hb with rfl | ⟨v, rfl, hv⟩
    · rw [List.append_nil]; exact .plain (h2 n (.inl (hs ht.1))) hn
    · exact .bang (h2 _ (.inl (hs ht.1))) hv
  case isFalse =>
    simp only [sh_cons, sh_append, sh_nil] at hw
    obtain ⟨u, _, rfl, hu, w', _, rfl, hw', v, _, rfl, hv, rfl⟩ := hw
    obtain ⟨e', h1, h2⟩ := h w' hw'
    refine ⟨e', h1, fun n hn => ?_⟩
    have h3 := h2 v.type (.inr (by rw [lex_type hv]; exact ends_ok _ (by decide)))
    rcases hb with rfl | ⟨q, rfl, hq⟩
    · rw [List.append_nil]; exact .paren (kw_of hu (by decide +kernel)) h3 (kw_of hv (by decide +kernel)) hn
    · have := fun n => ESyn.parenBang (n := n) (kw_of hu (by decide +kernel)) h3 (kw_of hv (by decide +kernel)) hq
      simpa using this n

theorem id_of {u : Tok} {x : Ident} (h : u.lexeme = idTok x) : Id x u := type_of h
theorem quoted_of {u : Tok} {b : List Char} (h : u.lexeme = strTok b) : Quoted b u := type_of h

theorem key_of {u : Tok} {k : Key} (h : u.lexeme = k.tok) (hk : k.ok) : KeySyn k u := by
  cases k with
  | resource => exact .resource (kw_of h (by decide +kernel))
  | ident x => exact .ident (id_of h)
  | quoted s b => cases hk.1; exact .quoted (quoted_of h)

theorem existing_of {b : Bool} {w : List Tok} (h : Sh w (existingToks b)) : ExistingSyn b w := by
  cases b with
  | false => rw [sh_nil.mp h]; exact .no
  | true =>
    simp only [existingToks, if_true, sh_cons, sh_nil] at h
    obtain ⟨u, _, rfl, hu, rfl⟩ := h
    exact .yes (kw_of hu (by decide +kernel))

theorem simpleR_simple {e : Expr} : e.simpleR = true → e.simple = true := Expr.simple_of_simpleR

theorem mark_ends {u : Tok} {t : Nat} (h : u.lexeme = kw t) (ht : t ∈ ends) : NoInfix u.type ∧ NoBang u.type := by
  rw [lex_type h]; exact ends_ok _ ht
theorem nobang_of {u : Tok} {t : Nat} {x : List Char} (h : u.lexeme = (t, x)) (ht : t ∈ others) : NoBang u.type := by
  rw [(type_of h).1]; exact others_ok _ ht

theorem tail_next {π : Spot} {es : List Expr} {w : List Tok} (h : Sh w (Expr.tailToks β π es)) {n} (hn : NoBang n) : NoBang (nextT w n) := by
  cases es with
  | nil => rw [sh_nil.mp h]; exact hn
  | cons e es =>
    simp only [Expr.tailToks, List.cons_append, sh_cons] at h
    obtain ⟨u, _, rfl, hu, _⟩ := h
    exact nobang_of hu (by decide)

theorem argTail_next {π : Spot} {es : List (Option Expr)} (he : ∀ o ∈ es, o.isSome = true) {w : List Tok}
    (h : Sh w (Expr.argTailToks β π es)) {n} (hn : NoBang n) : NoBang (nextT w n) := by
  cases es with
  | nil => rw [sh_nil.mp h]; exact hn
  | cons e es =>
    simp only [Expr.argTailToks, he e (by simp), if_true, List.cons_append, sh_cons] at h
    obtain ⟨u, _, rfl, hu, _⟩ := h
    exact nobang_of hu (by decide)

theorem lines_next {π : Spot} {is : List Item} {w : List Tok} (h : Sh w (Item.lineToks β π is)) {n}
    (hn : n ≠ T._CPP_COMMENT_NL) : nextT w n ≠ T._CPP_COMMENT_NL := by
  cases is with
  | nil => rw [sh_nil.mp h]; exact hn
  | cons i is =>
    cases i with
    | pair k v =>
      simp only [Item.lineToks, Item.toks, List.cons_append, sh_cons] at h
      obtain ⟨u, _, rfl, hu, _⟩ := h
      show u.type ≠ _
      cases k <;> (rw [(type_of hu).1]; decide)
    | pairLoop k v =>
      simp only [Item.lineToks, Item.toks, List.cons_append, sh_cons] at h
      obtain ⟨u, _, rfl, hu, _⟩ := h
      show u.type ≠ _
      cases k <;> (rw [(type_of hu).1]; decide)
    | child l x b ex c =>
      simp only [Item.lineToks, Item.toks, List.cons_append, sh_cons] at h
      obtain ⟨u, _, rfl, hu, _⟩ := h
      show u.type ≠ _
      rw [(type_of hu).1]; decide

theorem bareO_map (es : List Expr) : Expr.bareO (es.map some) = (Expr.bareL es).map some := by
  induction es with
  | nil => rfl
  | cons e es ih => simp [Expr.bareO, Expr.bareL, Expr.bare1, ih]

theorem obj_syn {π : Spot} {is : List Item} (ih : ∀ w, Sh w (Item.lineToks β π is) → ∃ is', Item.bareL is' = Item.bareL is ∧
      ∀ n, n ≠ T._CPP_COMMENT_NL → Items is' w n) {w : List Tok}
    (h : Sh w (kw T.LBRACE :: nl :: (Item.lineToks β π is ++ [kw T.RBRACE]))) :
    ∃ is', Item.bareL is' = Item.bareL is ∧ ∀ n, ObjSyn is' w n := by
  simp only [sh_cons, sh_append, sh_nil] at h
  obtain ⟨u, _, rfl, hu, v, _, rfl, hv, w1, _, rfl, h1, x, _, rfl, hx, rfl⟩ := h
  obtain ⟨is', hb, hi⟩ := ih w1 h1
  refine ⟨is', hb, fun n => ?_⟩
  exact ObjSyn.mk (w1 := [v]) (kw_of hu (by decide +kernel)) (by
    intro y hy; simp only [List.mem_singleton] at hy; rw [hy]; exact (type_of hv).1)
    (hi _ (by rw [lex_type hx]; decide)) (kw_of hx (by decide +kernel))

theorem nl_breaks {v : Tok} (hv : v.lexeme = nl) : Breaks [v] := by
  intro y hy; simp only [List.mem_singleton] at hy; rw [hy]; exact (type_of hv).1

theorem linesOf_exists {w : List Tok} (h : w ≠ []) : ∃ l, LinesOf l w := by
  cases w with
  | nil => exact (h rfl).elim
  | cons u w => exact ⟨_, u, (u :: w).getLast (by simp), rfl, List.getLast?_eq_some_getLast _, rfl⟩

mutual
theorem Expr.syn {π : Spot} : (e : Expr) → e.ok → ∀ w, Sh w (e.toks β π) → WaysE e w
  | .null, _, w, h => by
    simp only [Expr.toks, sh_cons, sh_nil] at h
    obtain ⟨u, _, rfl, hu, rfl⟩ := h
    exact ⟨.null, rfl, fun n _ => .null (w := []) (.inl rfl) (kw_of hu (by decide +kernel))⟩
  | .tru, _, w, h => by
    simp only [Expr.toks, sh_cons, sh_nil] at h
    obtain ⟨u, _, rfl, hu, rfl⟩ := h
    exact ⟨.tru, rfl, fun n _ => .tru (w := []) (.inl rfl) (kw_of hu (by decide +kernel))⟩
  | .fls, _, w, h => by
    simp only [Expr.toks, sh_cons, sh_nil] at h
    obtain ⟨u, _, rfl, hu, rfl⟩ := h
    exact ⟨.fls, rfl, fun n _ => .fls (w := []) (.inl rfl) (kw_of hu (by decide +kernel))⟩
  | .int d, _, w, h => by
    simp only [Expr.toks, sh_cons, sh_nil] at h
    obtain ⟨u, _, rfl, hu, rfl⟩ := h
    exact ⟨.int d, rfl, fun n _ => .int (w := []) (.inl rfl) (type_of hu)⟩
  | .ident x, _, w, h => by
    simp only [Expr.toks, sh_cons, sh_nil] at h
    obtain ⟨u, _, rfl, hu, rfl⟩ := h
    exact ⟨.ident x, rfl, fun n _ => .ident (w := []) (.inl rfl) (id_of hu)⟩
  | .str b, _, w, h => by
    simp only [Expr.toks, sh_cons, sh_nil] at h
    obtain ⟨u, _, rfl, hu, rfl⟩ := h
    exact ⟨.str b, rfl, fun n _ => .str (w := []) (.inl rfl) (quoted_of hu)⟩
  | .multi b, _, w, h => by
    simp only [Expr.toks, sh_cons, sh_nil] at h
    obtain ⟨u, _, rfl, hu, rfl⟩ := h
    exact ⟨.multi b, rfl, fun n _ => .multi (type_of hu)⟩
  | .array es, ok, w, h => by
    simp only [Expr.toks, sh_cons, sh_append, sh_nil] at h
    obtain ⟨u, _, rfl, hu, w1, _, rfl, h1, v, _, rfl, hv, rfl⟩ := h
    cases es with
    | nil =>
      rw [sh_nil.mp h1]
      exact ⟨.array [], rfl, fun n _ => .array (w1 := []) (w2 := []) (kw_of hu (by decide +kernel))
        (by intro y hy; cases hy) .nil (kw_of hv (by decide +kernel))⟩
    | cons e es =>
      simp only [Expr.listToks, sh_append] at h1
      obtain ⟨w2, w3, rfl, h2, h3⟩ := h1
      obtain ⟨e', he, hE⟩ := wrap_syn (Expr.syn e ok.1) _ id w2 h2
      obtain ⟨es', hes, hT⟩ := Expr.synT es ok.2 w3 h3
      refine ⟨.array (e' :: es'), by simp [Expr.bare, Expr.bareL, he, hes], fun n _ => ?_⟩
      have hv' := mark_ends hv (by decide)
      refine .array (w1 := []) (kw_of hu (by decide +kernel)) (by intro y hy; cases hy) ?_ (kw_of hv (by decide +kernel))
      have := Elems.snoc (w1 := []) (w4 := []) (n := v.type) .nil (hE _ (by
        rw [List.append_nil]; exact tail_next h3 hv'.2)) (hT _ hv'.1 hv'.2).1 (by intro y hy; cases hy) hv'.1
      simpa using this
  | .object is, ok, w, h => by
    obtain ⟨is', hb, hi⟩ := obj_syn (Item.synL is ok) h
    exact ⟨.object is', by simp [Expr.bare, hb], fun n _ => .object (hi n)⟩
  | .call f es, ok, w, h => by
    simp only [Expr.toks, sh_cons, sh_append, sh_nil] at h
    obtain ⟨u, _, rfl, hu, w1, _, rfl, h1, v, _, rfl, hv, rfl⟩ := h
    cases es with
    | nil =>
      rw [sh_nil.mp h1]
      refine ⟨.call f [], rfl, fun n _ => .call (w1 := []) (.inl rfl) ?_⟩
      exact CallSyn.noArg (w1 := []) (w3 := []) (w4 := []) (type_of hu) (.inl rfl) .nil (.inl rfl) (kw_of hv (by decide +kernel))
    | cons e es =>
      simp only [Expr.listToks, sh_append] at h1
      obtain ⟨w2, w3, rfl, h2, h3⟩ := h1
      obtain ⟨e', he, hE⟩ := wrap_syn (Expr.syn e ok.1) _ id w2 h2
      obtain ⟨es', hes, hT⟩ := Expr.synT es ok.2 w3 h3
      refine ⟨.call f (e' :: es'), by simp [Expr.bare, Expr.bareL, he, hes], fun n _ => .call (w1 := []) (.inl rfl) ?_⟩
      have hv' := mark_ends hv (by decide)
      have := CallSyn.args (w1 := []) (w4 := []) (v := v) (n := n) (type_of hu) (.inl rfl) (hE _ (by
        rw [List.append_nil]; exact tail_next h3 hv'.2)) (hT _ hv'.1 hv'.2).2 (.inl rfl) (kw_of hv (by decide +kernel))
      simpa using this
  | .bin op a b, ok, w, h => by
    simp only [Expr.toks, sh_cons, sh_append] at h
    obtain ⟨w1, _, rfl, h1, u, _, rfl, hu, w2, w3, rfl, h2, h3⟩ := h
    obtain ⟨a', ha, hA⟩ := wrap_syn (Expr.syn a ok.1) _ id w1 h1
    obtain ⟨b', hb, hB⟩ := wrap_syn (Expr.syn b ok.2) _ simpleR_simple w2 h2
    refine ⟨.bin op a' b', by simp [Expr.bare, ha, hb], fun n hn => ?_⟩
    have hn : NoInfix n ∧ NoBang n := hn.resolve_left (by simp [Expr.simple])
    obtain ⟨ho1, ho2, ho3⟩ := op_ok op
    have hu' : NoBang u.type := by rw [lex_type hu]; exact ho1
    cases hs : op.sign with
    | some s =>
      have : op.closing = [] := by cases op <;> first | rfl | cases hs
      rw [this, sh_nil] at h3
      subst h3
      rw [List.append_nil]
      exact .bin hs (hA _ hu') (kw_of hu (ho2 s hs)) (hB _ hn.2) hn.1
    | none =>
      have := ho3 hs
      subst this
      simp only [BinOp.closing, sh_cons, sh_nil] at h3
      obtain ⟨v, _, rfl, hv, rfl⟩ := h3
      exact .index (hA _ hu') (kw_of hu (by decide +kernel)) (hB _ (mark_ends hv (by decide)).2) (kw_of hv (by decide +kernel))
  | .not a, ok, w, h => by
    simp only [Expr.toks, sh_cons] at h
    obtain ⟨u, w1, rfl, hu, h1⟩ := h
    obtain ⟨a', ha, hA⟩ := wrap_syn (Expr.syn a ok) _ id w1 h1
    refine ⟨.not a', by simp [Expr.bare, ha], fun n hn => ?_⟩
    have hn : NoInfix n ∧ NoBang n := hn.resolve_left (by simp [Expr.simple])
    exact .not (kw_of hu (by decide +kernel)) (hA _ hn.2) hn.1
  | .minus a, ok, w, h => by
    simp only [Expr.toks, sh_cons] at h
    obtain ⟨u, w1, rfl, hu, h1⟩ := h
    obtain ⟨a', ha, hA⟩ := wrap_syn (Expr.syn a ok) _ id w1 h1
    refine ⟨.minus a', by simp [Expr.bare, ha], fun n hn => ?_⟩
    have hn : NoInfix n ∧ NoBang n := hn.resolve_left (by simp [Expr.simple])
    exact .minus (kw_of hu (by decide +kernel)) (hA _ hn.2) hn.1
  | .cond c t f, ok, w, h => by
    simp only [Expr.toks, sh_cons, sh_append] at h
    obtain ⟨w1, _, rfl, h1, u, _, rfl, hu, w2, _, rfl, h2, v, w3, rfl, hv, h3⟩ := h
    obtain ⟨c', hc, hC⟩ := wrap_syn (Expr.syn c ok.1) _ id w1 h1
    obtain ⟨t', ht, hT⟩ := wrap_syn (Expr.syn t ok.2.1) _ id w2 h2
    obtain ⟨f', hf, hF⟩ := wrap_syn (Expr.syn f ok.2.2) _ id w3 h3
    refine ⟨.cond c' t' f', by simp [Expr.bare, hc, ht, hf], fun n hn => ?_⟩
    have hn : NoInfix n ∧ NoBang n := hn.resolve_left (by simp [Expr.simple])
    exact .cond (hC _ (nobang_of hu (by decide))) (kw_of hu (by decide +kernel)) (hT _ (nobang_of hv (by decide)))
      (kw_of hv (by decide +kernel)) (hF _ hn.2) hn.1
  | .method a f args, ok, w, h => by
    simp only [Expr.toks, sh_cons, sh_append, sh_nil] at h
    obtain ⟨w1, _, rfl, h1, u, _, rfl, hu, m, _, rfl, hm, p, _, rfl, hp, w2, _, rfl, h2, q, _, rfl, hq, rfl⟩ := h
    obtain ⟨a', ha, hA⟩ := wrap_syn (Expr.syn a ok.1) _ id w1 h1
    obtain ⟨args', hr, hR⟩ := Expr.synA args ok.2.2.1 ok.2.2.2 w2 h2
    refine ⟨.method a' f args', by simp [Expr.bare, ha, hr], fun n hn => ?_⟩
    have hq' := mark_ends hq (by decide)
    exact .method (hA _ (nobang_of hu (by decide))) (kw_of hu (by decide +kernel)) (type_of hm)
      (kw_of hp (by decide +kernel)) (hR _ hq'.1 hq'.2) (kw_of hq (by decide +kernel))
  | .lambda v e, ok, w, h => by
    simp only [Expr.toks, sh_cons, sh_append] at h
    obtain ⟨w1, _, rfl, h1, u, w2, rfl, hu, h2⟩ := h
    obtain ⟨v', hv, hV⟩ := wrap_syn (Expr.syn v ok.1) _ id w1 h1
    obtain ⟨e', he, hE⟩ := wrap_syn (Expr.syn e ok.2) _ id w2 h2
    refine ⟨.lambda v' e', by simp [Expr.bare, hv, he], fun n hn => ?_⟩
    have hn : NoInfix n ∧ NoBang n := hn.resolve_left (by simp [Expr.simple])
    exact .lambda (hV _ (nobang_of hu (by decide))) (kw_of hu (by decide +kernel)) (hE _ hn.2) hn.1
  | .lambdaN v1 v2 v3 vs e, ok, w, h => by
    obtain ⟨o1, o2, o3, o4, o5⟩ := ok
    simp only [Expr.toks, List.cons_append, sh_cons, sh_append] at h
    obtain ⟨p, _, rfl, hp, w1, _, rfl, h1, u, _, rfl, hu, w2, _, rfl, h2,
      c, _, rfl, hc, _, _, rfl, ⟨w4, w5, rfl, h4, h5⟩, q, _, rfl, hq, y, w6, rfl, hy, h6⟩ := h
    obtain ⟨v1', e1, s1⟩ := wrap_syn (Expr.syn v1 o1) _ id w1 h1
    obtain ⟨v2', e2, s2⟩ := wrap_syn (Expr.syn v2 o2) _ id w2 h2
    obtain ⟨v3', e3, s3⟩ := wrap_syn (Expr.syn v3 o3) _ id w4 h4
    obtain ⟨vs', e4, s4⟩ := Expr.synT vs o4 w5 h5
    obtain ⟨e', e5, s5⟩ := wrap_syn (Expr.syn e o5) _ id w6 h6
    refine ⟨.lambdaN v1' v2' v3' vs' e', by simp [Expr.bare, e1, e2, e3, e4, e5], fun n hn => ?_⟩
    have hn : NoInfix n ∧ NoBang n := hn.resolve_left (by simp [Expr.simple])
    have hq' := mark_ends hq (by decide)
    have h3 := ETail.cons (kw_of (s := ",") hc (by decide +kernel)) s3 (fun _ h => comma_ok h) (s4 _ hq'.1 hq'.2).1 hq'.1 hq'.2
    have := ESyn.lambdaN (kw_of hp (by decide +kernel)) (s1 _ (nobang_of hu (by decide))) (kw_of hu (by decide +kernel))
      (s2 _ (show NoBang (nextT (c :: (w4 ++ w5)) q.type) from nobang_of hc (by decide))) h3
      (kw_of hq (by decide +kernel)) (kw_of hy (by decide +kernel)) (s5 n hn.2) hn.1
    simpa using this
theorem Expr.synT {π : Spot} : (es : List Expr) → Expr.okL es → ∀ w, Sh w (Expr.tailToks β π es) →
    ∃ es', Expr.bareL es' = Expr.bareL es ∧ ∀ n, NoInfix n → NoBang n → ETail es' w n ∧ FTail es' w n
  | [], _, w, h => by rw [sh_nil.mp h]; exact ⟨[], rfl, fun n _ _ => ⟨.nil, .nil⟩⟩
  | e :: es, ok, w, h => by
    simp only [Expr.tailToks, List.cons_append, sh_cons, sh_append] at h
    obtain ⟨u, _, rfl, hu, w1, w2, rfl, h1, h2⟩ := h
    obtain ⟨e', he, hE⟩ := wrap_syn (Expr.syn e ok.1) _ id w1 h1
    obtain ⟨es', hes, hT⟩ := Expr.synT es ok.2 w2 h2
    have hu' := kw_of (s := ",") hu (by decide +kernel)
    refine ⟨e' :: es', by simp [Expr.bareL, he, hes], fun n h1 h2 => ⟨?_, ?_⟩⟩
    · exact ETail.cons hu' hE (fun _ h => comma_ok h) (hT n h1 h2).1 h1 h2
    · exact FTail.cons hu' hE (fun _ h => comma_ok h) (hT n h1 h2).2 h1 h2
theorem Expr.syn1 {π : Spot} : (o : Option Expr) → Expr.ok1 o → ∀ w, Sh w (Expr.optToks β π o) →
    ∃ o', Expr.bare1 o' = Expr.bare1 o ∧ match o, o' with
      | .none, .none => w = []
      | some _, some e' => ∀ n, NoBang n → ESyn true e' w n
      | _, _ => False
  | .none, _, w, h => ⟨.none, rfl, sh_nil.mp h⟩
  | some e, ok, w, h => by
    obtain ⟨e', he, hE⟩ := wrap_syn (Expr.syn e ok) _ id w h
    exact ⟨some e', by simp [Expr.bare1, he], hE⟩
theorem Expr.synA {π : Spot} : (os : List (Option Expr)) → ArgsOK os → Expr.okO os → ∀ w, Sh w (Expr.argToks β π os) →
    ∃ os', Expr.bareO os' = Expr.bareO os ∧ ∀ n, NoInfix n → NoBang n → MArgs os' w n
  | [], ha, _, _, _ => by
    exfalso
    rcases ha with h | ⟨e, h⟩ | ⟨h, _⟩
    · cases h
    · cases h
    · exact h rfl
  | o :: os, ha, ok, w, h => by
    simp only [Expr.argToks, sh_append] at h
    obtain ⟨w0, _, rfl, h0, w1, w2, rfl, h1, h2⟩ := h
    obtain ⟨o', ho, hO⟩ := Expr.syn1 o ok.1 w1 h1
    have hT := fun hs => Expr.synAT os hs ok.2 w2 h2
    rcases ha with h | ⟨e, h⟩ | ⟨_, h⟩
    · cases h
      rw [sh_nil.mp h2]
      rw [show (if (none : Option Expr).isSome && ([] : List (Option Expr)).isEmpty then [kw T.COMMA] else []) = [] from rfl, sh_nil] at h0
      subst h0
      cases o' with
      | some e' => exact hO.elim
      | none =>
        cases (show w1 = [] from hO)
        exact ⟨[.none], rfl, fun n _ _ => .empty⟩
    · cases h
      rw [show (if (some e : Option Expr).isSome && ([none] : List (Option Expr)).isEmpty then [kw T.COMMA] else []) = [] from rfl, sh_nil] at h0
      subst h0
      cases o' with
      | none => exact hO.elim
      | some e' =>
        have : w2 = [] := sh_nil.mp h2
        subst this
        refine ⟨[some e', .none], by simp only [Expr.bareO, ho], fun n _ hn => ?_⟩
        simpa using MArgs.one (hO n hn)
    · obtain ⟨es', hes, hE⟩ := hT fun o ho => h o (by simp [ho])
      cases o with
      | none => exact absurd (h _ (List.mem_cons_self ..)) (by simp)
      | some e =>
        cases o' with
        | none => exact hO.elim
        | some e' =>
          have hO : ∀ n, NoBang n → ESyn true e' w1 n := hO
          cases os with
          | nil =>
            have : w2 = [] := sh_nil.mp h2
            subst this
            simp only [Option.isSome_some, List.isEmpty_nil, Bool.and_self, if_true, sh_cons, sh_nil] at h0
            obtain ⟨u, _, rfl, hu, rfl⟩ := h0
            refine ⟨[some e'], by simp [Expr.bareO, ho], fun n hn1 hn2 => ?_⟩
            have := MArgs.lead (es := []) (e' := e') (by
              simpa using ETail.cons (kw_of (s := ",") hu (by decide +kernel)) hO (fun _ h => comma_ok h) (ETail.nil (n := n)) hn1 hn2)
            simpa using this
          | cons o2 os =>
            simp only [List.isEmpty_cons, Bool.and_false, Bool.false_eq_true, if_false, sh_nil] at h0
            subst h0
            refine ⟨some e' :: es'.map some, by rw [Expr.bareO, ho, hes, ← Expr.bareO], fun n hn1 hn2 => ?_⟩
            have hne : es' ≠ [] := by
              rintro rfl
              simp [Expr.bareO] at hes
            have hs := List.dropLast_concat_getLast hne
            have := MArgs.many (e := e') (es := es'.dropLast) (e' := es'.getLast hne) (n := n)
              (hO _ (argTail_next (fun o ho => h o (by simp only [List.mem_cons]; exact .inr (List.mem_cons.mp ho))) h2 hn2))
              (by rw [hs]; exact hE n hn1 hn2)
            rw [List.cons_append, hs] at this
            simpa using this
theorem Expr.synAT {π : Spot} : (os : List (Option Expr)) → (∀ o ∈ os, o.isSome = true) → Expr.okO os → ∀ w,
    Sh w (Expr.argTailToks β π os) → ∃ es', Expr.bareO (es'.map some) = Expr.bareO os ∧
      ∀ n, NoInfix n → NoBang n → ETail es' w n
  | [], _, _, w, h => by rw [sh_nil.mp h]; exact ⟨[], rfl, fun n _ _ => .nil⟩
  | o :: os, hs, ok, w, h => by
    simp only [Expr.argTailToks, hs o (by simp), if_true, List.cons_append, List.nil_append, sh_cons, sh_append] at h
    obtain ⟨u, _, rfl, hu, w1, w2, rfl, h1, h2⟩ := h
    obtain ⟨o', ho, hO⟩ := Expr.syn1 o ok.1 w1 h1
    obtain ⟨es', hes, hE⟩ := Expr.synAT os (fun o ho => hs o (by simp [ho])) ok.2 w2 h2
    cases o with
    | none => exact absurd (hs _ (List.mem_cons_self ..)) (by simp)
    | some e =>
      cases o' with
      | none => exact hO.elim
      | some e' =>
        refine ⟨e' :: es', by simp [Expr.bareO, ho, hes], fun n hn1 hn2 => ?_⟩
        exact ETail.cons (kw_of (s := ",") hu (by decide +kernel)) hO (fun _ h => comma_ok h) (hE n hn1 hn2) hn1 hn2
theorem Item.syn {π : Spot} : (i : Item) → i.ok → ∀ w v, Sh w (i.toks β π) → v.lexeme = nl →
    ∃ i', i'.bare = i.bare ∧ ∀ n, n ≠ T._CPP_COMMENT_NL → Items [i'] (w ++ [v]) n
  | .pair k e, ok, w, v, h, hv => by
    simp only [Item.toks, sh_cons] at h
    obtain ⟨u, _, rfl, hu, c, w1, rfl, hc, h1⟩ := h
    obtain ⟨e', he, hE⟩ := wrap_syn (Expr.syn e ok.2) _ id w1 h1
    refine ⟨.pair k e', by simp [Item.bare, he], fun n _ => ?_⟩
    have hv' : NoInfix v.type ∧ NoBang v.type := by rw [(type_of hv).1]; exact ends_ok _ (by decide)
    have := Items.pairs (w1 := []) (w3 := []) (w4 := [v]) (n := n) .nil
      (PairSyn.expr (key_of hu ok.1) (kw_of hc (by decide +kernel)) (hE v.type hv'.2) hv'.1) .nil (nl_breaks hv)
    simpa using this
  | .pairLoop k l, ok, w, v, h, hv => by
    simp only [Item.toks, sh_cons] at h
    obtain ⟨u, _, rfl, hu, c, w1, rfl, hc, h1⟩ := h
    obtain ⟨l', hl, hL⟩ := Loop.syn l ok.2 w1 h1
    refine ⟨.pairLoop k l', by simp [Item.bare, hl], fun n _ => ?_⟩
    have := Items.pairs (w1 := []) (w3 := []) (w4 := [v]) (n := n) .nil
      (PairSyn.loop (key_of hu ok.1) (kw_of hc (by decide +kernel)) (hL v.type)) .nil (nl_breaks hv)
    simpa using this
  | .child _ x b ex c, ok, w, v, h, hv => by
    simp only [Item.toks, sh_cons, sh_append] at h
    obtain ⟨u, _, rfl, hu, y, _, rfl, hy, q, _, rfl, hq, w1, _, rfl, h1, e, w2, rfl, he, h2⟩ := h
    obtain ⟨c', hc, hC⟩ := Config.syn c ok.2 w2 h2
    obtain ⟨l, hl⟩ := linesOf_exists (w := u :: y :: q :: (w1 ++ (e :: (w2 ++ [v])))) (by simp)
    have hv' : NoInfix v.type ∧ NoBang v.type := by rw [(type_of hv).1]; exact ends_ok _ (by decide)
    refine ⟨.child l x b ex c', by simp [Item.bare, hc], fun n hn => ?_⟩
    have := Items.child (w1 := []) (w3 := []) (n := n) .nil
      (ChildSyn.mk (w3 := [v]) (kw_of hu (by decide +kernel)) (id_of hy) (quoted_of hq) (existing_of h1)
        (kw_of he (by decide +kernel)) (hC v.type hv'.1 hv'.2) (nl_breaks hv) (by simp) hn hl) (by intro y hy; cases hy)
    simpa using this
theorem Item.synL {π : Spot} : (is : List Item) → Item.okL is → ∀ w, Sh w (Item.lineToks β π is) →
    ∃ is', Item.bareL is' = Item.bareL is ∧ ∀ n, n ≠ T._CPP_COMMENT_NL → Items is' w n
  | [], _, w, h => by rw [sh_nil.mp h]; exact ⟨[], rfl, fun n _ => .nil⟩
  | i :: is, ok, w, h => by
    simp only [Item.lineToks, sh_append, sh_cons] at h
    obtain ⟨w1, _, rfl, h1, v, w2, rfl, hv, h2⟩ := h
    obtain ⟨i', hi, hI⟩ := Item.syn i ok.1 w1 v h1 hv
    obtain ⟨is', his, hIs⟩ := Item.synL is ok.2 w2 h2
    refine ⟨i' :: is', by simp [Item.bareL, hi, his], fun n hn => ?_⟩
    have := Items.append (hIs n hn) (hI _ (lines_next h2 hn))
    simpa using this
theorem Loop.syn {π : Spot} : (l : Loop) → l.ok → ∀ w, Sh w (l.toks β π) → ∃ l', l'.bare = l.bare ∧ ∀ n, LoopSyn l' w n
  | .mk hd c e, ok, w, h => by
    simp only [Loop.toks, sh_append, sh_cons, sh_nil] at h
    obtain ⟨u, _, rfl, hu, f, _, rfl, hf, w2, _, rfl, h2, k, _, rfl, hk, w0, _, rfl, h0, w3, _, rfl, h3, v, _, rfl, hv, rfl⟩ := h
    obtain ⟨hd', eh, hH⟩ := LoopHead.syn hd ok.1 w2 h2
    obtain ⟨c', ec, hC⟩ := Expr.syn1 c ok.2.1 w0 h0
    obtain ⟨e', ee, hE⟩ := wrap_syn (Expr.syn e ok.2.2) _ id w3 h3
    have hk' := mark_ends hk (by decide)
    have hv' := mark_ends hv (by decide)
    refine ⟨.mk hd' c' e', by simp [Loop.bare, eh, ec, ee], fun n => ?_⟩
    match c, c', hC with
    | .none, .none, hC =>
      cases (show w0 = [] from hC)
      have := LoopSyn.plain (w1 := []) (w4 := []) (n := n) (kw_of hu (by decide +kernel)) (.inl rfl) (kw_of hf (by decide +kernel))
        (hH _ hk'.1 hk'.2) (kw_of hk (by decide +kernel)) (hE v.type hv'.2) (.inl rfl) (kw_of hv (by decide +kernel))
      simpa using this
    | some _, some c', hC =>
      have hC : ∀ n, NoBang n → ESyn true c' w0 n := hC
      have := LoopSyn.filter (w1 := []) (w4 := []) (n := n) (kw_of hu (by decide +kernel)) (.inl rfl) (kw_of hf (by decide +kernel))
        (hH _ hk'.1 hk'.2) (kw_of hk (by decide +kernel)) (hC _ (wrap_next h3 [] v.type)) (hE v.type hv'.2) (.inl rfl)
        (kw_of hv (by decide +kernel))
      simpa using this
theorem LoopHead.syn {π : Spot} : (l : LoopHead) → l.ok → ∀ w, Sh w (l.toks β π) →
    ∃ l', l'.bare = l.bare ∧ ∀ n, NoInfix n → NoBang n → HeadSyn l' w n
  | .arr x e, ok, w, h => by
    simp only [LoopHead.toks, sh_cons] at h
    obtain ⟨u, _, rfl, hu, i, w1, rfl, hi, h1⟩ := h
    obtain ⟨e', he, hE⟩ := wrap_syn (Expr.syn e ok) _ id w1 h1
    exact ⟨.arr x e', by simp [LoopHead.bare, he], fun n h1 h2 => .arr (id_of hu) (kw_of hi (by decide +kernel)) (hE n h2) h1⟩
  | .arrIdx x y e, ok, w, h => by
    simp only [LoopHead.toks, sh_cons] at h
    obtain ⟨p, _, rfl, hp, u, _, rfl, hu, c, _, rfl, hc, v, _, rfl, hv, q, _, rfl, hq, i, w1, rfl, hi, h1⟩ := h
    obtain ⟨e', he, hE⟩ := wrap_syn (Expr.syn e ok.2.2) _ id w1 h1
    exact ⟨.arrIdx x y e', by simp [LoopHead.bare, he], fun n h1 h2 => .arrIdx (kw_of hp (by decide +kernel)) (id_of hu)
      (kw_of hc (by decide +kernel)) (id_of hv) (kw_of hq (by decide +kernel)) (kw_of hi (by decide +kernel)) (hE n h2) h1⟩
  | .obj x e, ok, w, h => by
    simp only [LoopHead.toks, sh_cons, sh_append, sh_nil] at h
    obtain ⟨u, _, rfl, hu, i, _, rfl, hi, k, _, rfl, hk, p, _, rfl, hp, w1, _, rfl, h1, q, _, rfl, hq, rfl⟩ := h
    obtain ⟨e', he, hE⟩ := wrap_syn (Expr.syn e ok) _ id w1 h1
    exact ⟨.obj x e', by simp [LoopHead.bare, he], fun n _ _ => .obj (id_of hu) (kw_of hi (by decide +kernel))
      (kw_of hk (by decide +kernel)) (kw_of hp (by decide +kernel)) (hE _ (mark_ends hq (by decide)).2) (kw_of hq (by decide +kernel))⟩
theorem Config.syn {π : Spot} : (c : Config) → c.ok → ∀ w, Sh w (c.toks β π) →
    ∃ c', c'.bare = c.bare ∧ ∀ n, NoInfix n → NoBang n → ConfigSyn c' w n
  | .obj is, ok, w, h => by
    obtain ⟨is', hb, hi⟩ := obj_syn (Item.synL is ok) h
    exact ⟨.obj is', by simp [Config.bare, hb], fun n _ _ => .obj (hi n)⟩
  | .loop l, ok, w, h => by
    obtain ⟨l', hl, hL⟩ := Loop.syn l ok w h
    exact ⟨.loop l', by simp [Config.bare, hl], fun n _ _ => .loop (hL n)⟩
  | .cond c e, ok, w, h => by
    simp only [Config.toks, sh_cons, sh_append] at h
    obtain ⟨i, _, rfl, hi, p, _, rfl, hp, w1, _, rfl, h1, q, w2, rfl, hq, h2⟩ := h
    obtain ⟨c', hc, hC⟩ := wrap_syn (Expr.syn c ok.1) _ id w1 h1
    obtain ⟨e', he, hE⟩ := wrap_syn (Expr.syn e ok.2) _ id w2 h2
    refine ⟨.cond c' e', by simp [Config.bare, hc, he], fun n h1 h2 => ?_⟩
    exact .cond (w1 := []) (.inl rfl) (kw_of hi (by decide +kernel)) (kw_of hp (by decide +kernel))
      (hC _ (mark_ends hq (by decide)).2) (kw_of hq (by decide +kernel)) (hE n h2) h1
end

/-- an operand -/
theorem Expr.synO {π : Spot} {e : Expr} (ok : e.ok) {w : List Tok} (h : Sh w (e.opd β π)) :
    ∃ e', e'.bare = e.bare ∧ ∀ n, NoBang n → ESyn true e' w n :=
  wrap_syn (Expr.syn e ok) _ id w h

/-! ### Types -/

theorem suffixes_syn : ∀ (k : Nat) (w : List Tok), Sh w (suffixToks k) → Suffixes k w
  | 0, w, h => by rw [sh_nil.mp h]; exact .zero
  | k + 1, w, h => by
    simp only [suffixToks, sh_append, sh_cons, sh_nil] at h
    obtain ⟨w1, _, rfl, h1, u, _, rfl, hu, v, _, rfl, hv, rfl⟩ := h
    exact .succ (suffixes_syn k w1 h1) (kw_of hu (by decide +kernel)) (kw_of hv (by decide +kernel))

theorem TypeTail.cons {d u w} (hu : Kw "|" u) (hd : TypeSyn d w) :
    ∀ {ds w2}, TypeTail ds w2 → TypeTail (d :: ds) (u :: (w ++ w2))
  | _, _, .nil => by simpa using TypeTail.snoc .nil hu hd
  | _, _, .snoc h hu' hd' => by simpa using TypeTail.snoc (TypeTail.cons hu hd h) hu' hd'

mutual
theorem DataType.syn : (d : DataType) → ∀ w, Sh w d.toks → TypeSyn d w
  | .mk b k, w, h => by
    simp only [DataType.toks, sh_append] at h
    obtain ⟨w1, w2, rfl, h1, h2⟩ := h
    exact .mk (BaseType.syn b w1 h1) (suffixes_syn k w2 h2)
theorem BaseType.syn : (b : BaseType) → ∀ w, Sh w b.toks → BaseSyn b w
  | .name x, w, h => by
    simp only [BaseType.toks, sh_cons, sh_nil] at h
    obtain ⟨u, _, rfl, hu, rfl⟩ := h
    exact .name (id_of hu)
  | .union d1 d2 ds, w, h => by
    simp only [BaseType.toks, List.cons_append, sh_cons, sh_append, sh_nil] at h
    obtain ⟨p, _, rfl, hp, w1, _, rfl, h1, u, _, rfl, hu, _, _, rfl, ⟨w2, w3, rfl, h2, h3⟩, q, _, rfl, hq, rfl⟩ := h
    have := BaseSyn.union (kw_of hp (by decide +kernel)) (DataType.syn d1 w1 h1)
      (TypeTail.cons (kw_of hu (by decide +kernel)) (DataType.syn d2 w2 h2) (DataType.synL ds w3 h3)) (kw_of hq (by decide +kernel))
    simpa using this
theorem DataType.synL : (ds : List DataType) → ∀ w, Sh w (DataType.tailToks ds) → TypeTail ds w
  | [], w, h => by rw [sh_nil.mp h]; exact .nil
  | d :: ds, w, h => by
    simp only [DataType.tailToks, List.cons_append, sh_cons, sh_append] at h
    obtain ⟨u, _, rfl, hu, w2, w3, rfl, h2, h3⟩ := h
    exact TypeTail.cons (kw_of hu (by decide +kernel)) (DataType.syn d w2 h2) (DataType.synL ds w3 h3)
end

/-! ### Declarations -/

theorem Deco.syn {π : Spot} (d : Deco) (ok : Expr.ok1 d.arg) (w : List Tok) (h : Sh w (d.toks β π)) :
    ∃ d' : Deco, (⟨d'.name, Expr.bare1 d'.arg⟩ : Deco) = ⟨d.name, Expr.bare1 d.arg⟩ ∧ DecoSyn d' w := by
  obtain ⟨x, o⟩ := d
  simp only [Deco.toks, sh_append, sh_cons, sh_nil] at h
  obtain ⟨a, _, rfl, ha, u, _, rfl, hu, p, _, rfl, hp, w1, _, rfl, h1, q, _, rfl, hq, v, _, rfl, hv, rfl⟩ := h
  obtain ⟨o', ho, hO⟩ := Expr.syn1 o ok w1 h1
  refine ⟨⟨x, o'⟩, by simp only [ho], ?_⟩
  match o, o', hO with
  | .none, .none, hO =>
    cases (show w1 = [] from hO)
    exact DecoSyn.noArg (w1 := []) (kw_of ha (by decide +kernel)) (type_of hu) (kw_of hp (by decide +kernel))
      (by intro y hy; cases hy) (by simp) (kw_of hq (by decide +kernel)) (nl_breaks hv) (by simp)
  | some _, some e', hO =>
    have hO : ∀ n, NoBang n → ESyn true e' w1 n := hO
    exact DecoSyn.arg (w1 := []) (w3 := []) (kw_of ha (by decide +kernel)) (type_of hu) (kw_of hp (by decide +kernel))
      (.inl rfl) (hO _ (mark_ends hq (by decide)).2) (.inl rfl) (kw_of hq (by decide +kernel)) (nl_breaks hv) (by simp)

theorem Deco.synL {π : Spot} : ∀ (ds : List Deco), Deco.okL ds → ∀ w, Sh w (decoToks β π ds) →
    ∃ ds', Deco.bareL ds' = Deco.bareL ds ∧ DecosSyn ds' w
  | [], _, w, h => by rw [sh_nil.mp h]; exact ⟨[], rfl, .nil⟩
  | d :: ds, ok, w, h => by
    simp only [decoToks, sh_append] at h
    obtain ⟨w1, w2, rfl, h1, h2⟩ := h
    obtain ⟨d', hd, hD⟩ := Deco.syn d (ok d (by simp)) w1 h1
    obtain ⟨ds', hds, hDs⟩ := Deco.synL ds (fun d hd => ok d (by simp [hd])) w2 h2
    refine ⟨d' :: ds', ?_, DecosSyn.cons hD hDs⟩
    simp only [Deco.bareL, List.map_cons] at hds ⊢
    rw [hd, hds]

theorem as_syn (o : Option Ident) (w : List Tok) (h : Sh w (asToks o)) : AsSyn o w := by
  cases o with
  | none => rw [sh_nil.mp h]; exact .no
  | some x =>
    simp only [asToks, sh_cons, sh_nil] at h
    obtain ⟨u, _, rfl, hu, v, _, rfl, hv, rfl⟩ := h
    exact .yes (kw_of hu (by decide +kernel)) (id_of hv)

theorem star_of {u : Tok} (h : u.lexeme = (T.__ANON_1, ['*'])) : Star u := type_of h

theorem ImportItem.syn (i : ImportItem) (w : List Tok) (h : Sh w i.toks) : ImportSyn i w := by
  obtain ⟨x, al⟩ := i
  simp only [ImportItem.toks, sh_cons] at h
  obtain ⟨u, w1, rfl, hu, h1⟩ := h
  have h2 := as_syn al w1 h1
  cases x <;> cases h2
  · exact .name (id_of hu)
  · exact .nameAs (id_of hu) ‹_› ‹_›
  · exact .star (star_of hu)
  · exact .starAs (star_of hu) ‹_› ‹_›

theorem ImportTail.cons {i u w} (hu : Kw "," u) (hi : ImportSyn i w) :
    ∀ {is w2}, ImportTail is w2 → ImportTail (i :: is) (u :: (w ++ w2))
  | _, _, .nil => by simpa using ImportTail.snoc .nil hu hi
  | _, _, .snoc h hu' hi' => by simpa using ImportTail.snoc (ImportTail.cons hu hi h) hu' hi'

theorem importTail_syn : ∀ (is : List ImportItem) (w : List Tok),
    Sh w (is.flatMap (fun j => kw T.COMMA :: j.toks)) → ImportTail is w
  | [], w, h => by rw [sh_nil.mp h]; exact .nil
  | i :: is, w, h => by
    simp only [List.flatMap_cons, List.cons_append, sh_cons, sh_append] at h
    obtain ⟨u, _, rfl, hu, w2, w3, rfl, h2, h3⟩ := h
    exact ImportTail.cons (kw_of hu (by decide +kernel)) (i.syn w2 h2) (importTail_syn is w3 h3)

theorem ParamTail.cons {x d u v w} (hu : Kw "," u) (hv : Id x v) (hd : TypeSyn d w) :
    ∀ {ps w2}, ParamTail ps w2 → ParamTail ((x, d) :: ps) (u :: v :: (w ++ w2))
  | _, _, .nil => by simpa using ParamTail.snoc .nil hu hv hd
  | _, _, .snoc h hu' hv' hd' => by simpa using ParamTail.snoc (ParamTail.cons hu hv hd h) hu' hv' hd'

theorem paramTail_syn : ∀ (ps : List (Ident × DataType)) (w : List Tok), Sh w (paramTailToks ps) → ParamTail ps w
  | [], w, h => by rw [sh_nil.mp h]; exact .nil
  | (x, d) :: ps, w, h => by
    simp only [paramTailToks, sh_cons, sh_append] at h
    obtain ⟨u, _, rfl, hu, v, _, rfl, hv, w2, w3, rfl, h2, h3⟩ := h
    exact ParamTail.cons (kw_of hu (by decide +kernel)) (id_of hv) (d.syn w2 h2) (paramTail_syn ps w3 h3)

theorem params_syn (ps : List (Ident × DataType)) (w : List Tok) (h : Sh w (paramToks ps)) : ParamsSyn ps w := by
  match ps with
  | [] => rw [sh_nil.mp h]; exact .nil
  | (x, d) :: ps =>
    simp only [paramToks, sh_cons, sh_append] at h
    obtain ⟨v, _, rfl, hv, w2, w3, rfl, h2, h3⟩ := h
    exact .mk (id_of hv) (d.syn w2 h2) (paramTail_syn ps w3 h3)

theorem vbar_ok {t : Nat} (h : fixedText t = some "|") : NoInfix t ∧ NoBang t := by
  unfold NoInfix NoBang
  rw [h]; decide

theorem AltTail.cons {e u w} (hu : Kw "|" u) (he : ∀ n, NoBang n → ESyn true e w n) :
    ∀ {es w2 n}, AltTail es w2 n → NoInfix n → NoBang n → AltTail (e :: es) (u :: (w ++ w2)) n
  | _, _, _, .nil, h1, h2 => by simpa using AltTail.snoc (w1 := []) .nil hu (he _ h2) h1
  | _, _, _, .snoc h hu' he' hn, h1, _ => by
    have := AltTail.snoc (AltTail.cons hu he h (vbar_ok hu'.1).1 (vbar_ok hu'.1).2) hu' he' hn
    simpa using this

theorem alt_next {π : Spot} {es : List Expr} {w : List Tok} (h : Sh w (altToks β π es)) {n} (hn : NoBang n) : NoBang (nextT w n) := by
  cases es with
  | nil => rw [sh_nil.mp h]; exact hn
  | cons e es =>
    simp only [altToks, sh_cons] at h
    obtain ⟨u, _, rfl, hu, _⟩ := h
    exact nobang_of hu (by decide)

theorem alt_syn {π : Spot} : ∀ (es : List Expr), Expr.okL es → ∀ w, Sh w (altToks β π es) →
    ∃ es', Expr.bareL es' = Expr.bareL es ∧ ∀ n, NoInfix n → NoBang n → AltTail es' w n
  | [], _, w, h => by rw [sh_nil.mp h]; exact ⟨[], rfl, fun n _ _ => .nil⟩
  | e :: es, ok, w, h => by
    simp only [altToks, sh_cons, sh_append] at h
    obtain ⟨u, _, rfl, hu, w1, w2, rfl, h1, h2⟩ := h
    obtain ⟨e', he, hE⟩ := Expr.synO ok.1 h1
    obtain ⟨es', hes, hT⟩ := alt_syn es ok.2 w2 h2
    exact ⟨e' :: es', by simp [Expr.bareL, he, hes], fun n h1 h2 =>
      AltTail.cons (kw_of hu (by decide +kernel)) hE (hT n h1 h2) h1 h2⟩

theorem varType_syn (t : Option DataType) (w : List Tok) (h : Sh w (typeToks t)) : VarType t w := by
  cases t with
  | none => rw [sh_nil.mp h]; exact .no
  | some d => simpa using VarType.yes (w2 := []) (d.syn w h) (.inl rfl)

theorem default_syn {π : Spot} (o : Option Expr) (ok : Expr.ok1 o) (w : List Tok) (h : Sh w (defaultToks β π o)) :
    ∃ o', Expr.bare1 o' = Expr.bare1 o ∧ ∀ n, NoInfix n → NoBang n → DefaultSyn o' w n := by
  cases o with
  | none => rw [sh_nil.mp h]; exact ⟨.none, rfl, fun n _ _ => .no⟩
  | some e =>
    simp only [defaultToks, sh_cons] at h
    obtain ⟨u, w1, rfl, hu, h1⟩ := h
    obtain ⟨e', he, hE⟩ := Expr.synO (e := e) ok h1
    exact ⟨some e', by simp [Expr.bare1, he], fun n h1 h2 => .yes (kw_of hu (by decide +kernel)) (hE n h2) h1⟩

theorem with_syn {π : Spot} (c : Option (List Item)) (ok : ∀ is, c = some is → Item.okL is) (w : List Tok) (h : Sh w (withToks β π c)) :
    ∃ c', c'.map Item.bareL = c.map Item.bareL ∧ ∀ n, WithSyn c' w n := by
  cases c with
  | none => rw [sh_nil.mp h]; exact ⟨.none, rfl, fun n => .no⟩
  | some is =>
    simp only [withToks, sh_cons] at h
    obtain ⟨u, w1, rfl, hu, h1⟩ := h
    obtain ⟨is', hb, hi⟩ := obj_syn (Item.synL is (ok is rfl)) h1
    exact ⟨some is', by simp [hb], fun n => .yes (kw_of hu (by decide +kernel)) (hi n)⟩

theorem LoopOrExpr.syn {π : Spot} (e : LoopOrExpr) (ok : e.ok) (w : List Tok) (h : Sh w (e.toks β π)) :
    ∃ e', e'.bare = e.bare ∧ ∀ n, NoInfix n → NoBang n → ValueSyn e' w n := by
  cases e with
  | expr e =>
    obtain ⟨e', he, hE⟩ := Expr.synO (e := e) ok h
    exact ⟨.expr e', by simp [LoopOrExpr.bare, he], fun n h1 h2 => .expr (hE n h2) h1⟩
  | loop l =>
    obtain ⟨l', hl, hL⟩ := Loop.syn l ok w h
    exact ⟨.loop l', by simp [LoopOrExpr.bare, hl], fun n _ _ => .loop (hL n)⟩

theorem Decl.syn {π : Spot} (d : Decl) (ok : d.ok) (w : List Tok) (h : Sh w (d.toks β π)) :
    ∃ d', d'.bare = d.bare ∧ ∀ n, NoInfix n → NoBang n → DeclSyn d' w n := by
  cases d with
  | scope b =>
    simp only [Decl.toks, sh_cons, sh_nil] at h
    obtain ⟨u, _, rfl, hu, e, _, rfl, he, q, _, rfl, hq, rfl⟩ := h
    exact ⟨.scope b, rfl, fun n _ _ => .scope (kw_of hu (by decide +kernel)) (kw_of he (by decide +kernel)) (quoted_of hq)⟩
  | importNs b =>
    simp only [Decl.toks, sh_cons, sh_nil] at h
    obtain ⟨u, _, rfl, hu, q, _, rfl, hq, rfl⟩ := h
    exact ⟨.importNs b, rfl, fun n _ _ => .importNs (kw_of hu (by decide +kernel)) (quoted_of hq)⟩
  | importFrom i is b =>
    simp only [Decl.toks, sh_cons, sh_append, sh_nil] at h
    obtain ⟨u, _, rfl, hu, o, _, rfl, ho, w1, _, rfl, h1, w2, _, rfl, h2, c, _, rfl, hc, f, _, rfl, hf, q, _, rfl, hq, rfl⟩ := h
    exact ⟨.importFrom i is b, rfl, fun n _ _ => .importList (kw_of hu (by decide +kernel)) (kw_of ho (by decide +kernel))
      (i.syn w1 h1) (importTail_syn is w2 h2) (kw_of hc (by decide +kernel)) (kw_of hf (by decide +kernel)) (quoted_of hq)⟩
  | extension x c al =>
    simp only [Decl.toks, sh_cons, sh_append] at h
    obtain ⟨u, _, rfl, hu, v, _, rfl, hv, w1, w2, rfl, h1, h2⟩ := h
    obtain ⟨c', hc, hC⟩ := with_syn c (by rintro is rfl; exact ok) w1 h1
    exact ⟨.extension x c' al, by simp [Decl.bare, hc], fun n _ _ => .extension (kw_of hu (by decide +kernel)) (id_of hv)
      (hC _) (as_syn al w2 h2)⟩
  | metadata x b =>
    simp only [Decl.toks, sh_cons, sh_nil] at h
    obtain ⟨u, _, rfl, hu, v, _, rfl, hv, e, _, rfl, he, q, _, rfl, hq, rfl⟩ := h
    exact ⟨.metadata x b, rfl, fun n _ _ => .metadata (kw_of hu (by decide +kernel)) (id_of hv) (kw_of he (by decide +kernel)) (quoted_of hq)⟩
  | param ds x t o =>
    simp only [Decl.toks, sh_cons, sh_append] at h
    obtain ⟨w0, _, rfl, h0, u, _, rfl, hu, v, _, rfl, hv, w1, w2, rfl, h1, h2⟩ := h
    obtain ⟨ds', hd, hD⟩ := Deco.synL ds ok.1 w0 h0
    obtain ⟨o', ho, hO⟩ := default_syn o ok.2.2 w2 h2
    refine ⟨.param ds' x t o', by simp [Decl.bare, hd, ho], fun n n1 n2 => ?_⟩
    exact .param (w2 := []) hD (kw_of hu (by decide +kernel)) (id_of hv) (t.syn w1 h1) (.inl rfl) (hO n n1 n2)
  | var ds x t e =>
    simp only [Decl.toks, sh_cons, sh_append] at h
    obtain ⟨w0, _, rfl, h0, u, _, rfl, hu, v, _, rfl, hv, w1, _, rfl, h1, q, w2, rfl, hq, h2⟩ := h
    obtain ⟨ds', hd, hD⟩ := Deco.synL ds ok.1 w0 h0
    obtain ⟨e', he, hE⟩ := LoopOrExpr.syn e ok.2.2 w2 h2
    refine ⟨.var ds' x t e', by simp [Decl.bare, hd, he], fun n n1 n2 => ?_⟩
    exact .var hD (kw_of hu (by decide +kernel)) (id_of hv) (varType_syn t w1 h1) (kw_of hq (by decide +kernel)) (hE n n1 n2)
  | output ds x t e =>
    simp only [Decl.toks, sh_cons, sh_append] at h
    obtain ⟨w0, _, rfl, h0, u, _, rfl, hu, v, _, rfl, hv, w1, _, rfl, h1, q, w2, rfl, hq, h2⟩ := h
    obtain ⟨ds', hd, hD⟩ := Deco.synL ds ok.1 w0 h0
    obtain ⟨e', he, hE⟩ := LoopOrExpr.syn e ok.2.2 w2 h2
    refine ⟨.output ds' x t e', by simp [Decl.bare, hd, he], fun n n1 n2 => ?_⟩
    exact .output (w2 := []) hD (kw_of hu (by decide +kernel)) (id_of hv) (t.syn w1 h1) (.inl rfl) (kw_of hq (by decide +kernel)) (hE n n1 n2)
  | resource ds x b ex c =>
    simp only [Decl.toks, sh_cons, sh_append] at h
    obtain ⟨w0, _, rfl, h0, u, _, rfl, hu, v, _, rfl, hv, t, _, rfl, ht, w1, _, rfl, h1, q, w2, rfl, hq, h2⟩ := h
    obtain ⟨ds', hd, hD⟩ := Deco.synL ds ok.1 w0 h0
    obtain ⟨c', hc, hC⟩ := Config.syn c ok.2.2 w2 h2
    refine ⟨.resource ds' x b ex c', by simp [Decl.bare, hd, hc], fun n n1 n2 => ?_⟩
    exact .resource hD (kw_of hu (by decide +kernel)) (id_of hv) (quoted_of ht) (existing_of h1) (kw_of hq (by decide +kernel)) (hC n n1 n2)
  | module ds x b c =>
    simp only [Decl.toks, sh_cons, sh_append] at h
    obtain ⟨w0, _, rfl, h0, u, _, rfl, hu, v, _, rfl, hv, t, _, rfl, ht, q, w2, rfl, hq, h2⟩ := h
    obtain ⟨ds', hd, hD⟩ := Deco.synL ds ok.1 w0 h0
    obtain ⟨c', hc, hC⟩ := Config.syn c ok.2.2 w2 h2
    refine ⟨.module ds' x b c', by simp [Decl.bare, hd, hc], fun n n1 n2 => ?_⟩
    exact .module hD (kw_of hu (by decide +kernel)) (id_of hv) (quoted_of ht) (kw_of hq (by decide +kernel)) (hC n n1 n2)
  | typ ds x e es =>
    simp only [Decl.toks, sh_cons, sh_append] at h
    obtain ⟨w0, _, rfl, h0, u, _, rfl, hu, v, _, rfl, hv, q, _, rfl, hq, w1, w2, rfl, h1, h2⟩ := h
    obtain ⟨ds', hd, hD⟩ := Deco.synL ds ok.1 w0 h0
    obtain ⟨e', he, hE⟩ := Expr.synO ok.2.1 h1
    obtain ⟨es', hes, hEs⟩ := alt_syn es ok.2.2 w2 h2
    refine ⟨.typ ds' x e' es', by simp [Decl.bare, hd, he, hes], fun n n1 n2 => ?_⟩
    exact .typ hD (kw_of hu (by decide +kernel)) (id_of hv) (kw_of hq (by decide +kernel)) (hE _ (alt_next h2 n2)) (hEs n n1 n2) n1
  | func ds x ps t e =>
    simp only [Decl.toks, sh_cons, sh_append] at h
    obtain ⟨w0, _, rfl, h0, u, _, rfl, hu, v, _, rfl, hv, p, _, rfl, hp, w1, _, rfl, h1, q, _, rfl, hq, w2, _, rfl, h2,
      a, w3, rfl, ha, h3⟩ := h
    obtain ⟨ds', hd, hD⟩ := Deco.synL ds ok.1 w0 h0
    obtain ⟨e', he, hE⟩ := Expr.synO ok.2.2.2 h3
    refine ⟨.func ds' x ps t e', by simp [Decl.bare, hd, he], fun n n1 n2 => ?_⟩
    exact .func hD (kw_of hu (by decide +kernel)) (id_of hv) (kw_of hp (by decide +kernel)) (params_syn ps w1 h1)
      (kw_of hq (by decide +kernel)) (t.syn w2 h2) (kw_of ha (by decide +kernel)) (hE n n2) n1

theorem Decl.toks_ne (π : Spot) (d : Decl) : d.toks β π ≠ [] := by
  cases d <;> simp [Decl.toks]

theorem ProgSyn.append {p w1} : ∀ {p' w2 n}, ProgSyn p' w2 n → ProgSyn p w1 (nextT w2 n) → ProgSyn (p ++ p') (w1 ++ w2) n
  | _, _, _, .nil, h => by simpa [nextT] using h
  | _, _, _, .decl hp hd hl, h => by
    have := ProgSyn.decl (ProgSyn.append hp (by rwa [nextT_append] at h)) hd hl
    simpa using this
  | _, _, _, .nl hp hu, h => by
    have := fun n => ProgSyn.nl (n := n) (ProgSyn.append hp (by rwa [nextT_append] at h)) hu
    simpa using this _

/-- every token list of the shape of the canonical tokens writes the program, apart from line numbers -/
theorem Program.syn {π : Spot} : ∀ (p : Program), p.ok → ∀ w, Sh w (progToks β π p) →
    ∃ p', Program.bare p' = Program.bare p ∧ ∀ n, ProgSyn p' w n
  | [], _, w, h => by rw [sh_nil.mp h]; exact ⟨[], rfl, fun n => .nil⟩
  | (l, d) :: p, ok, w, h => by
    simp only [progToks, sh_append, sh_cons, sh_nil] at h
    obtain ⟨_, w2, rfl, ⟨w1, _, rfl, h1, v, _, rfl, hv, rfl⟩, h2⟩ := h
    obtain ⟨d', hd, hD⟩ := Decl.syn d (ok (l, d) (by simp)) w1 h1
    obtain ⟨p', hp, hP⟩ := Program.syn p (fun d hd => ok d (by simp [hd])) w2 h2
    obtain ⟨l', hl⟩ := linesOf_exists (w := w1) (by rintro rfl; exact d.toks_ne _ (by simpa [Sh] using h1.symm))
    refine ⟨(l', d') :: p', ?_, fun n => ?_⟩
    · simp only [Program.bare, List.map_cons] at hp ⊢
      rw [hp, hd]
    · have hv' : NoInfix v.type ∧ NoBang v.type := by rw [(type_of hv).1]; exact ends_ok _ (by decide)
      have h3 := ProgSyn.decl (p := []) (w1 := []) .nil (hD v.type hv'.1 hv'.2) hl
      have := ProgSyn.append (hP n) (ProgSyn.nl h3 (type_of hv).1)
      simpa using this

end Pycep
