import Verif.Proofs.LineEnds
import Verif.ReadText
import Verif.Proofs.CoreTree
/-
The lexer and the parser on a text and on its Unix form: the same tokens on the same lines, up to the
line ends inside token texts, and so the same tree.
-/
namespace Pycep

mutual
/-- The words of a tree: the names, numbers and string literals it was built from. -/
def Tree.texts : Tree → List (List Char)
  | .tok t => [t.text]
  | .none => []
  | .node _ ks _ => textsOf ks
/-- the words of several trees -/
def textsOf : List Tree → List (List Char)
  | [] => []
  | t :: ts => t.texts ++ textsOf ts
end

theorem countNL_unix : ∀ s : List Char, countNL (unix s) = countNL s
  | [] => rfl
  | c :: s => by
    have ih := countNL_unix s
    unfold countNL at *
    rw [unix]
    split
    · rename_i h
      rw [h.1, List.count_cons, ih]; simp
    · rw [List.count_cons, List.count_cons, ih]

/-! ### Tokens -/

theorem IsNewlines.last {x} (h : IsNewlines x) : x.getLast? = some '\n' := by
  induction h with
  | lf => rfl
  | crlf => rfl
  | @consLf x h ih => rw [List.getLast?_cons, ih]; rfl
  | @consCrlf x h ih => rw [List.getLast?_cons, List.getLast?_cons, ih]; rfl

theorem last_append {x y : List Char} (h : y ≠ []) : (x ++ y).getLast? = y.getLast? := by
  rw [List.getLast?_append]
  cases e : y.getLast? with
  | none => exact absurd (List.getLast?_eq_none_iff.mp e) h
  | some c => rfl

theorem last_of_all {x : List Char} {p : Char → Bool} (hp : p '\r' = false) (h : ∀ c ∈ x, p c = true) :
    x.getLast? ≠ some '\r' := fun e => by
  have := h _ (List.mem_of_getLast? e)
  rw [hp] at this; simp at this

/-- no token ends with `\r` -/
theorem TokText.last {t x} (ht : t < tEND) (h : TokText t x) : x.getLast? ≠ some '\r' := by
  by_cases hr : t ∈ reIds
  · simp only [reIds, List.mem_cons, List.not_mem_nil, or_false] at hr
    rcases hr with rfl | rfl | rfl | rfl | rfl | rfl | rfl | rfl | rfl | rfl | rfl | rfl | rfl | rfl
    · exact last_of_all isAsciiAlpha_breaks.1 h.2
    · obtain ⟨p, n, rfl, _⟩ := h; rw [last_append (by simp)]; decide
    · obtain ⟨b, rfl⟩ := h; rw [last_append (by simp)]; decide
    · obtain ⟨b, rfl⟩ := h; rw [last_append (by simp)]; decide
    · obtain ⟨c, cs, rfl, hc, hs⟩ := h
      refine last_of_all (p := fun c => isAsciiAlpha c || c == '_' || isWord c) (by decide) ?_
      intro d hd
      rcases List.mem_cons.mp hd with rfl | hd
      · rcases hc with hc | rfl
        · simp [hc]
        · rfl
      · simp [hs d hd]
    · rcases h with h | ⟨c, n, rfl, _, hn⟩
      · rw [IsNewlines.last h]; decide
      · rw [last_append hn.ne_nil, hn.last]; decide
    · obtain ⟨b, rfl, _⟩ := h; rw [last_append (by simp)]; decide
    · obtain ⟨p, n, rfl, _, hn, ha⟩ := h
      rw [last_append hn]
      exact last_of_all isAsciiAlnum_breaks.1 ha
    · obtain ⟨d, s, h1, h2, _⟩ := h; cases h1; cases h2
    · obtain ⟨d, s, h1, h2, _⟩ := h; cases h1; cases h2
    · rw [IsNewlines.last h]; decide
    · exact last_of_all isAsciiDigit_breaks.1 h.2
    · obtain ⟨d, s, h1, h2, _⟩ := h; cases h1; cases h2
    · rw [show x = ['*'] from h]; decide
  · obtain ⟨d, s, hd, hs, hre, hne⟩ := strTerm ht hr
    obtain ⟨l, e, hl⟩ := strTerm_chars ht hr
    have : x = s.toList := by
      unfold TokText at h
      split at h <;> first
        | exact absurd (by decide) hr
        | (obtain ⟨d', s', hd', hs', rfl⟩ := h
           rw [hd] at hd'; cases hd'; rw [hs] at hs'; cases hs'; rfl)
    subst this
    have hch : ∀ c ∈ s.toList, c ≠ '\r' := by
      have : Re.lit s.toList = Re.lit l := by rw [← e, termRe, hd]; exact hre.symm
      have inj : ∀ a b : List Char, Re.lit a = Re.lit b → (∀ c ∈ b, c ≠ '\r' ∧ c ≠ '\n') → ∀ c ∈ a, c ≠ '\r' := by
        intro a
        induction a with
        | nil => intro b _ _ c hc; simp at hc
        | cons y a ih =>
          intro b hb hall c hc
          cases b with
          | nil => simp [Re.lit] at hb
          | cons z b =>
            have hb : Re.seq (.chr y) (.lit a) = .seq (.chr z) (.lit b) := hb
            injection hb with h1 h2
            injection h1 with h1
            have hyz : y = z := by
              have := congrFun h1 y
              simpa using this
            rcases List.mem_cons.mp hc with rfl | hc
            · rw [hyz]; exact (hall z (by simp)).1
            · exact ih b h2 (fun c hc => hall c (by simp [hc])) c hc
      exact inj _ _ this hl
    intro e
    exact hch _ (List.mem_of_getLast? e) rfl

theorem unix_of_no_lf : ∀ {x w : List Char}, unix x = w → '\n' ∉ w → x = w
  | [], w, e, _ => e
  | c :: x, w, e, h => by
    by_cases hc : AtCrLf (c :: x)
    · obtain ⟨y, ey⟩ := hc.inv
      rw [ey, unix_crlf] at e
      rw [← e] at h
      simp at h
    · rw [unix_cons hc] at e
      subst e
      simp only [List.mem_cons, not_or] at h
      exact congrArg _ (unix_of_no_lf rfl h.2)

theorem unix_of_no_cr : ∀ {x : List Char}, '\r' ∉ x → unix x = x
  | [], _ => rfl
  | c :: x, h => by
    simp only [List.mem_cons, not_or] at h
    rw [unix_ne (fun e => h.1 e.symm), unix_of_no_cr h.2]

theorem strVal_chars : ∀ t < tEND, ∀ d, term? t = some d → ∀ s, d.strVal = some s →
    '\r' ∉ s.toList ∧ '\n' ∉ s.toList := by
  have h : ∀ t < tEND, (match term? t with
      | some d => match d.strVal with
        | some s => !s.toList.contains '\r' && !s.toList.contains '\n'
        | .none => true
      | .none => true) = true := by decide +kernel
  intro t ht d hd s hs
  have := h t ht
  rw [hd] at this
  simp only [hs] at this
  simpa using this

/-- keywords are recognised alike -/
theorem retype_unix {acc : List Nat} (hacc : ∀ t ∈ acc, t < tEND) {t : Nat} {x : List Char} :
    retype acc t (unix x) = retype acc t x := by
  unfold retype
  have hcong : ∀ l : List Nat, (∀ k ∈ l, k < tEND) →
      l.find? (fun k => match term? k with
        | some d => d.strVal == some (String.ofList (unix x))
        | .none => false) =
      l.find? (fun k => match term? k with
        | some d => d.strVal == some (String.ofList x)
        | .none => false) := by
    intro l hl
    induction l with
    | nil => rfl
    | cons k l ih =>
      rw [List.find?_cons, List.find?_cons, ih (fun k hk => hl k (by simp [hk]))]
      have : (match term? k with
          | some d => d.strVal == some (String.ofList (unix x))
          | .none => false) = (match term? k with
          | some d => d.strVal == some (String.ofList x)
          | .none => false) := by
        cases hd : term? k with
        | none => rfl
        | some d =>
          simp only
          cases hs : d.strVal with
          | none => rfl
          | some s =>
            obtain ⟨h1, h2⟩ := strVal_chars k (hl k (by simp)) d hd s hs
            rw [Bool.eq_iff_iff]
            simp only [beq_iff_eq, Option.some.injEq]
            constructor
            · intro e
              have e' : unix x = s.toList := by rw [e]; simp
              rw [unix_of_no_lf e' h2]; simp
            · intro e
              have e' : x = s.toList := by rw [e]; simp
              rw [e', unix_of_no_cr h1]; simp
      rw [this]
  have e := hcong (acc.filter (fun k => (unlessIds t).contains k))
    (fun k hk => hacc k (List.mem_filter.mp hk).1)
  exact congrArg (fun o : Option Nat => match o with | some k => k | .none => t) e

/-- a token of the Unix form -/
def Tok.unix (t : Tok) : Tok := ⟨t.type, Pycep.unix t.text, t.line, t.endLine⟩

/-- an answer of the lexer on the Unix form -/
def LexRes.unix : LexRes → LexRes
  | .eof => .eof
  | .fail => .fail
  | .tok t r => .tok t.unix (Pycep.unix r)

theorem nextTok_unix {acc : List Nat} (hacc : ∀ t ∈ acc, t < tEND) : ∀ (n : Nat) (s : List Char) (n' l : Nat),
    NoCrCrLf s → s.length ≤ n → (unix s).length ≤ n' →
    nextTok acc n' (unix s) l = (nextTok acc n s l).unix := by
  intro n
  induction n with
  | zero =>
    intro s n' l _ hs _
    have : s = [] := List.length_eq_zero_iff.mp (by omega)
    subst this
    rw [unix_nil]; simp [nextTok, LexRes.unix]
  | succ n ih =>
    intro s n' l hf hs hs'
    cases hs0 : s with
    | nil => rw [unix_nil]; simp [nextTok, LexRes.unix]
    | cons c s0 =>
      rw [← hs0]
      have hne : s ≠ [] := by rw [hs0]; simp
      have hune : unix s ≠ [] := fun h => hne (unix_eq_nil h)
      obtain ⟨n', rfl⟩ : ∃ m, n' = m + 1 := ⟨n' - 1, by
        have := List.length_pos_iff.mpr hune; omega⟩
      have hids : ∀ t ∈ scanIds acc, t < tEND := fun t ht => hacc t (List.mem_filter.mp ht).1
      have hscan := sim_scanWith hids hf (scanIds acc) hids
      have unf : ∀ (m : Nat) (z : List Char), z ≠ [] → nextTok acc (m + 1) z l =
          match scanWith (scanRe (scanIds acc)) (scanIds acc) z with
          | .none => .fail
          | some (t, rest) =>
            if rest.length < z.length then
              if ignoreIds.contains t then nextTok acc m rest (l + countNL (z.take (z.length - rest.length)))
              else .tok ⟨retype acc t (z.take (z.length - rest.length)), z.take (z.length - rest.length), l,
                l + countNL (z.take (z.length - rest.length))⟩ rest
            else .fail := by
        intro m z hz
        cases z with
        | nil => exact absurd rfl hz
        | cons d z =>
          conv => lhs; unfold nextTok
          rfl
      rw [unf _ _ hne, unf _ _ hune, hscan]
      cases hsc : scanWith (scanRe (scanIds acc)) (scanIds acc) s with
      | none => rfl
      | some p =>
        obtain ⟨t, rest⟩ := p
        rw [hsc] at hscan
        simp only [Option.map_some] at hscan
        obtain ⟨hmem, x, hx, hlang⟩ := scanWith_sound hsc
        obtain ⟨_, x', hx', hlang'⟩ := scanWith_sound hscan
        have ht : t < tEND := hids t hmem
        have hxne := termRe_ne_nil ht hlang
        have hxne' := termRe_ne_nil ht hlang'
        have htake : s.take (s.length - rest.length) = x := by rw [hx]; simp
        have htake' : (unix s).take ((unix s).length - (unix rest).length) = x' := by rw [hx']; simp
        have hl1 : rest.length < s.length := by
          rw [hx, List.length_append]; have := List.length_pos_iff.mpr hxne; omega
        have hl2 : (unix rest).length < (unix s).length := by
          rw [hx', List.length_append]; have := List.length_pos_iff.mpr hxne'; omega
        have hcount : countNL x' = countNL x := by
          have e1 := congrArg countNL hx
          have e2 := congrArg countNL hx'
          rw [countNL_unix] at e2
          have happ : ∀ a b : List Char, countNL (a ++ b) = countNL a + countNL b :=
            fun a b => List.count_append
          rw [happ] at e1 e2
          rw [countNL_unix] at e2
          omega
        have hsuf : rest <:+ s := ⟨x, hx.symm⟩
        simp only [Option.map_some]
        rw [if_pos hl1, if_pos hl2, htake, htake', hcount]
        have hsound := termRe_sound ht hlang
        cases hi : ignoreIds.contains t with
        | true =>
          simp only [if_true]
          exact ih rest n' _ (hf.suffix hsuf) (by omega) (by omega)
        | false =>
          have hni : t ∉ ignoreIds := by
            intro h; rw [List.contains_iff_mem.mpr h] at hi; simp at hi
          rw [if_neg hni] at hsound
          have hxu : x' = unix x := by
            have e := hx'
            rw [hx, unix_append (fun h => hsound.last ht h.1)] at e
            exact (List.append_cancel_right e).symm
          simp only [Bool.false_eq_true, if_false, LexRes.unix, Tok.unix]
          rw [hxu, retype_unix hacc]

/-! ### Trees -/

mutual
/-- a tree of the Unix form -/
def Tree.unix : Tree → Tree
  | .tok t => .tok t.unix
  | .none => .none
  | .node d ks sp => .node d (unixKids ks) sp
/-- `Tree.unix` of a list -/
def unixKids : List Tree → List Tree
  | [] => []
  | t :: ts => t.unix :: unixKids ts
end

theorem unixKids_eq : ∀ ts : List Tree, unixKids ts = ts.map Tree.unix
  | [] => rfl
  | t :: ts => by rw [unixKids, unixKids_eq ts, List.map_cons]

theorem lines_unix (t : Tree) : t.unix.lines? = t.lines? := by
  cases t with
  | tok t => simp [Tree.unix, Tree.lines?, Tok.unix]
  | none => simp [Tree.unix, Tree.lines?]
  | node d ks sp => cases sp <;> simp [Tree.unix, Tree.lines?]

theorem firstLines_unix : ∀ ts : List Tree, firstLines (ts.map Tree.unix) = firstLines ts
  | [] => rfl
  | t :: ts => by
    rw [List.map_cons, firstLines, firstLines, lines_unix, firstLines_unix ts]

theorem keepKids_unix (r : Rule) (ts : List Tree) :
    keepKids r (ts.map Tree.unix) = (keepKids r ts).map Tree.unix := by
  unfold keepKids
  rw [List.map_append, List.map_flatMap]
  congr 1
  · congr 1
    funext p
    obtain ⟨i, inline, nones⟩ := p
    simp only [List.map_append, List.map_replicate, List.getElem?_map]
    congr 1
    cases ts[i]? with
    | none => rfl
    | some k =>
      cases inline with
      | false => simp
      | true =>
        simp only [Option.map_some, if_true]
        cases k <;> simp [Tree.unix, unixKids_eq]
  · simp [Tree.unix]

theorem setSpan_unix (t : Tree) (ts : List Tree) :
    setSpan t.unix (ts.map Tree.unix) = (setSpan t ts).unix := by
  cases t with
  | tok t => simp [setSpan, Tree.unix]
  | none => simp [setSpan, Tree.unix]
  | node d ks sp =>
    unfold setSpan
    rw [Tree.unix]
    simp only
    rw [firstLines_unix, ← List.map_reverse, firstLines_unix]
    split
    · cases sp <;> rfl
    · rfl

theorem buildNode_unix (r : Rule) (ts : List Tree) :
    buildNode r (ts.map Tree.unix) = (buildNode r ts).unix := by
  unfold buildNode
  simp only
  rw [keepKids_unix, ← setSpan_unix]
  congr 1
  cases r.expand1 with
  | false => simp [Tree.unix, unixKids_eq]
  | true =>
    cases keepKids r ts with
    | nil => simp [Tree.unix, unixKids_eq]
    | cons k ks =>
      cases ks with
      | nil => rfl
      | cons _ _ => simp [Tree.unix, unixKids_eq]

/-- a stack of the Unix form -/
def unixStack (stk : Stack) : Stack := stk.map fun p => (p.1, p.2.unix)

theorem topState_unix (stk : Stack) : topState (unixStack stk) = topState stk := by
  cases stk <;> rfl

/-- an answer of the driver on the Unix form -/
def FeedRes.unix : FeedRes → FeedRes
  | .shifted stk => .shifted (unixStack stk)
  | .accept t => .accept t.unix
  | .unexpected => .unexpected
  | .stuck => .stuck
  | .fuel => .fuel

theorem feed_unix : ∀ (n : Nat) (stk : Stack) (tk : Tok),
    feed n (unixStack stk) tk.unix = (feed n stk tk).unix := by
  intro n
  induction n with
  | zero => intro stk tk; rfl
  | succ n ih =>
    intro stk tk
    unfold feed
    rw [topState_unix]
    have htype : tk.unix.type = tk.type := rfl
    rw [htype]
    cases action (topState stk) tk.type with
    | error => rfl
    | shift s =>
      simp only
      split
      · rfl
      · simp [FeedRes.unix, unixStack, Tree.unix]
    | reduce r =>
      simp only
      cases rules[r]? with
      | none => rfl
      | some rule =>
        simp only
        have hlen : (unixStack stk).length = stk.length := by simp [unixStack]
        rw [hlen]
        split
        · rfl
        · have hdrop : (unixStack stk).drop rule.rhs.length = unixStack (stk.drop rule.rhs.length) := by
            simp [unixStack]
          rw [hdrop, topState_unix]
          cases goto (topState (stk.drop rule.rhs.length)) rule.lhs with
          | none => rfl
          | some s =>
            have hkids : ((unixStack stk).take rule.rhs.length).reverse.map Prod.snd =
                ((stk.take rule.rhs.length).reverse.map Prod.snd).map Tree.unix := by
              simp [unixStack, ← List.map_take, ← List.map_reverse, List.map_map, Function.comp_def]
            simp only
            rw [hkids, buildNode_unix]
            split
            · rfl
            · have := ih ((s, buildNode rule ((stk.take rule.rhs.length).reverse.map Prod.snd)) ::
                stk.drop rule.rhs.length) tk
              rw [← this]
              rfl

/-- an answer of `Lark.parse` on the Unix form -/
def ParseRes.unix : ParseRes → ParseRes
  | .ok t => .ok t.unix
  | .unexpectedInput => .unexpectedInput
  | .stuck => .stuck
  | .fuel => .fuel

theorem nextTok_rest {acc : List Nat} (hacc : ∀ t ∈ acc, t < tEND) {n : Nat} {s : List Char} {l : Nat}
    {tk : Tok} {rest : List Char} (h : nextTok acc n s l = .tok tk rest) :
    rest <:+ s ∧ rest.length < s.length := by
  obtain ⟨p, x, e, _, hx, hlt, _⟩ := (nextTok_sound hacc n s l).2 tk rest h
  have := List.length_pos_iff.mpr (hx.ne_nil hlt)
  refine ⟨⟨p ++ x, e.symm⟩, ?_⟩
  rw [e]; simp; omega

theorem parseLoop_unix : ∀ (n n' : Nat) (stk : Stack) (s : List Char) (l : Nat),
    NoCrCrLf s → s.length < n → (unix s).length < n' →
    parseLoop n' (unixStack stk) (unix s) l = (parseLoop n stk s l).unix := by
  intro n
  induction n with
  | zero => intro n' stk s l _ h; omega
  | succ n ih =>
    intro n' stk s l hf hn hn'
    obtain ⟨n', rfl⟩ : ∃ m, n' = m + 1 := ⟨n' - 1, by omega⟩
    have hacc : ∀ t ∈ accepts (topState stk), t < tEND := fun t ht => accepts_lt ht
    unfold parseLoop
    have hfuel : feedFuel (unixStack stk) = feedFuel stk := by simp [feedFuel, unixStack]
    have hnt := nextTok_unix hacc s.length s (unix s).length l hf (Nat.le_refl _) (Nat.le_refl _)
    rw [topState_unix, hfuel, hnt]
    cases htk : nextTok (accepts (topState stk)) s.length s l with
    | fail => rfl
    | eof =>
      simp only [LexRes.unix]
      have := feed_unix (feedFuel stk) stk ⟨tEND, [], l, l⟩
      have e : (Tok.mk tEND [] l l).unix = ⟨tEND, [], l, l⟩ := rfl
      rw [e] at this
      rw [this]
      cases feed (feedFuel stk) stk ⟨tEND, [], l, l⟩ <;> rfl
    | tok tk rest =>
      simp only [LexRes.unix]
      rw [feed_unix]
      rw [htk] at hnt
      obtain ⟨hsuf, hlen⟩ := nextTok_rest hacc htk
      obtain ⟨_, hlen'⟩ := nextTok_rest hacc hnt
      cases feed (feedFuel stk) stk tk with
      | shifted stk' =>
        simp only [FeedRes.unix]
        exact ih n' stk' rest tk.endLine (hf.suffix hsuf) (by omega) (by omega)
      | accept t => rfl
      | unexpected => rfl
      | stuck => rfl
      | fuel => rfl

/-- **Parsing the Unix form**: the same outcome, the same tree up to the line ends inside tokens. -/
theorem larkParse_unix {t : String} (h : NoCrCrLf t.toList) :
    larkParse (unixText t) = (larkParse t).unix := by
  unfold larkParse unixText
  simp only [String.toList_ofList]
  exact parseLoop_unix _ _ [] t.toList 1 h (Nat.lt_succ_self _) (Nat.lt_succ_self _)

/-! ### The check before parsing -/

theorem countSub_unix {p : List Char} (hp : ∀ c ∈ p, c ≠ '\r' ∧ c ≠ '\n') (hne : p ≠ []) :
    ∀ (n : Nat) (s : List Char) (n' : Nat), s.length ≤ n → (unix s).length ≤ n' →
      countSub p n' (unix s) = countSub p n s := by
  have nil : ∀ n, countSub p n [] = 0 := by intro n; cases n <;> rfl
  intro n
  induction n with
  | zero =>
    intro s n' hs _
    have : s = [] := List.length_eq_zero_iff.mp (by omega)
    subst this
    rw [unix_nil, nil, nil]
  | succ n ih =>
    intro s n' hs hs'
    cases s with
    | nil => rw [unix_nil, nil, nil]
    | cons c s =>
      simp only [List.length_cons] at hs
      by_cases hc : AtCrLf (c :: s)
      · obtain ⟨x, e⟩ := hc.inv
        have hcr : c = '\r' := by injection e
        have hnp : p.isPrefixOf (c :: s) = false := by
          cases p with
          | nil => exact absurd rfl hne
          | cons d p =>
            have := (hp d (by simp)).1
            simp [List.isPrefixOf, hcr, this]
        rw [show countSub p (n + 1) (c :: s) = countSub p n s by
          rw [countSub, if_neg (by rw [hnp]; simp)]]
        rw [unix, if_pos (atCrLf_cons.mp hc)] at hs' ⊢
        exact ih s n' (by omega) hs'
      · rw [unix_cons hc] at hs' ⊢
        simp only [List.length_cons] at hs'
        obtain ⟨n', rfl⟩ : ∃ m, n' = m + 1 := ⟨n' - 1, by omega⟩
        rw [countSub, countSub]
        by_cases hpre : p <+: c :: s
        · obtain ⟨z, ez⟩ := hpre
          have hu : c :: unix s = p ++ unix z := by
            rw [← unix_cons hc, ← ez, unix_append, unix_of_no_cr fun h => (hp _ h).1 rfl]
            rintro ⟨h, _⟩
            exact (hp _ (List.mem_of_getLast? h)).1 rfl
          have h1 : p.isPrefixOf (c :: s) = true := by rw [List.isPrefixOf_iff_prefix]; exact ⟨z, ez⟩
          have h2 : p.isPrefixOf (c :: unix s) = true := by
            rw [List.isPrefixOf_iff_prefix]; exact ⟨unix z, hu.symm⟩
          rw [if_pos h1, if_pos h2, hu, ← ez]
          simp only [List.drop_left]
          have l1 := congrArg List.length ez
          have l2 := congrArg List.length hu
          simp only [List.length_cons, List.length_append] at l1 l2
          have := List.length_pos_iff.mpr hne
          rw [ih z n' (by omega) (by omega)]
        · have h1 : p.isPrefixOf (c :: s) = false := by
            rw [Bool.eq_false_iff]; rw [Ne, List.isPrefixOf_iff_prefix]; exact hpre
          have h2 : p.isPrefixOf (c :: unix s) = false := by
            rw [Bool.eq_false_iff]; rw [Ne, List.isPrefixOf_iff_prefix]
            rintro ⟨y, ey⟩
            obtain ⟨z, ez, _⟩ := unix_prefix hp ((unix_cons hc).trans ey.symm)
            exact hpre ⟨z, ez.symm⟩
          rw [h1, h2]
          simp only [Bool.false_eq_true, if_false]
          exact ih s n' (by omega) (by omega)

theorem isValid_unix (t : String) : isValid (unixText t) = isValid t := by
  unfold isValid unixText
  simp only [String.toList_ofList]
  rw [countSub_unix (by decide) (by decide) _ _ _ (Nat.le_refl _) (Nat.le_refl _)]

/-! ### Words without line ends -/

theorem unix_id : ∀ {x : List Char}, ¬ HasCrLf x → unix x = x
  | [], _ => rfl
  | c :: x, h => by
    have hc : ¬ AtCrLf (c :: x) := fun hc => by
      obtain ⟨y, e⟩ := hc.inv
      exact h ⟨[], y, e⟩
    have hx : ¬ HasCrLf x := fun ⟨a, b, e⟩ => h ⟨c :: a, b, by rw [e]; rfl⟩
    rw [unix_cons hc, unix_id hx]

mutual
theorem Tree.unix_id : ∀ {t : Tree}, (∀ w ∈ t.texts, ¬ HasCrLf w) → t.unix = t
  | .tok t, h => by
    rw [Tree.unix]
    have := Pycep.unix_id (h t.text (by simp [Tree.texts]))
    rw [Tok.unix, this]
  | .none, _ => rfl
  | .node d ks sp, h => by
    rw [Tree.unix, unixKids_id (ts := ks) (fun w hw => h w (by simpa [Tree.texts] using hw))]
theorem unixKids_id : ∀ {ts : List Tree}, (∀ w ∈ textsOf ts, ¬ HasCrLf w) → unixKids ts = ts
  | [], _ => rfl
  | t :: ts, h => by
    rw [unixKids, Tree.unix_id (t := t) (fun w hw => h w (by simp [textsOf, hw])),
      unixKids_id (ts := ts) (fun w hw => h w (by simp [textsOf, hw]))]
end

mutual
theorem texts_core : ∀ t : Tree, t.core.texts = t.texts
  | .tok t => by simp [Tree.core, Tree.texts]
  | .none => by simp [Tree.core]
  | .node d ks sp => by simp [Tree.core, Tree.texts, textsOf_core ks]
theorem textsOf_core : ∀ ts : List Tree, textsOf (coreList ts) = textsOf ts
  | [] => rfl
  | t :: ts => by simp [coreList, textsOf, texts_core t, textsOf_core ts]
end

/-! ### The printed tree -/

mutual
/-- no word ends with `\r`, no node has a `\r` in its name -/
def Tree.Fine : Tree → Prop
  | .tok t => t.text.getLast? ≠ some '\r'
  | .none => True
  | .node d ks _ => '\r' ∉ d.toList ∧ FineList ks
/-- `Tree.Fine` of a list -/
def FineList : List Tree → Prop
  | [] => True
  | t :: ts => t.Fine ∧ FineList ts
end

theorem fineList_iff : ∀ {ts : List Tree}, FineList ts ↔ ∀ t ∈ ts, t.Fine
  | [] => by simp [FineList]
  | t :: ts => by simp [FineList, fineList_iff (ts := ts)]

theorem unixText_append {a b : String} (h : a.toList.getLast? ≠ some '\r') :
    unixText (a ++ b) = unixText a ++ unixText b := by
  unfold unixText
  rw [String.toList_append, unix_append (fun hh => h hh.1), String.ofList_append]

theorem unixText_id {a : String} (h : '\r' ∉ a.toList) : unixText a = a := by
  unfold unixText
  rw [unix_of_no_cr h, String.ofList_toList]

theorem no_last {a : List Char} (h : '\r' ∉ a) : a.getLast? ≠ some '\r' :=
  fun e => h (List.mem_of_getLast? e)

theorem indent_cr (n : Nat) : '\r' ∉ (String.join (List.replicate n "  ")).toList := by
  induction n with
  | zero => decide
  | succ n ih =>
    rw [List.replicate_succ]
    rw [String.join_cons, String.toList_append, List.mem_append, not_or]
    exact ⟨by decide, ih⟩

theorem last_string {a b : String} (hb : b.toList ≠ []) : (a ++ b).toList.getLast? = b.toList.getLast? := by
  rw [String.toList_append, last_append hb]

theorem last_nl {a b : String} (hb : b.toList.getLast? = some '\n') : (a ++ b).toList.getLast? = some '\n' := by
  rw [last_string (by intro e; rw [e] at hb; simp at hb), hb]

mutual
theorem pretty_last : ∀ (t : Tree) (n : Nat), (t.prettyAux n).toList.getLast? = some '\n'
  | .tok t, n => by rw [Tree.prettyAux]; exact last_nl (by decide)
  | .none, n => by rw [Tree.prettyAux]; exact last_nl (by decide)
  | .node d [] sp, n => by rw [Tree.prettyAux]; exact last_nl (by decide)
  | .node d [.tok t] sp, n => by rw [Tree.prettyAux]; exact last_nl (by decide)
  | .node d [.none] sp, n => by rw [Tree.prettyAux]; exact last_nl (by decide)
  | .node d [.node d' ks' sp'] sp, n => by
    rw [Tree.prettyAux]
    · exact last_nl (prettyKids_last _ _ (by simp))
    all_goals simp
  | .node d (k1 :: k2 :: ks) sp, n => by
    rw [Tree.prettyAux]
    · exact last_nl (prettyKids_last _ _ (by simp))
    all_goals simp
theorem prettyKids_last : ∀ (ts : List Tree) (n : Nat), ts ≠ [] →
    (Tree.prettyKids n ts).toList.getLast? = some '\n'
  | [], _, h => absurd rfl h
  | t :: ts, n, _ => by
    have h1 := pretty_last t n
    have h2 := prettyKids_last ts n
    rw [Tree.prettyKids]
    cases ts with
    | nil => rw [Tree.prettyKids, String.append_empty]; exact h1
    | cons t' ts => exact last_nl (h2 (by simp))
end

mutual
theorem pretty_unix : ∀ (t : Tree) (n : Nat), t.Fine → t.unix.prettyAux n = unixText (t.prettyAux n)
  | .tok t, n, h => by
    have h : t.text.getLast? ≠ some '\r' := h
    rw [Tree.unix, Tree.prettyAux, Tree.prettyAux, String.append_assoc,
      String.append_assoc (s₂ := String.ofList t.text),
      unixText_append (no_last (indent_cr n)), unixText_append (by simpa using h),
      unixText_id (indent_cr n), unixText_id (a := "\n") (by decide)]
    congr 2
    simp [unixText, Tok.unix]
  | .none, n, _ => by
    rw [Tree.unix, Tree.prettyAux, unixText_append (no_last (indent_cr n)), unixText_id (indent_cr n),
      unixText_id (a := "None\n") (by decide)]
  | .node d ks sp, n, h => by
    have hd : '\r' ∉ d.toList := h.1
    have hkids := prettyKids_unix ks (n + 1) h.2
    have two : ∀ (k1 k2 : Tree) (ks : List Tree), Tree.prettyAux n (.node d (k1 :: k2 :: ks) sp) =
        (String.join (List.replicate n "  ")) ++ d ++ "\n" ++ Tree.prettyKids (n + 1) (k1 :: k2 :: ks) := by
      intro k1 k2 ks; rw [Tree.prettyAux] <;> simp
    have hhead : '\r' ∉ ((String.join (List.replicate n "  ")) ++ d ++ "\n").toList := by
      simp only [String.toList_append, List.mem_append, not_or]
      exact ⟨⟨indent_cr n, hd⟩, by decide⟩
    have hhead' : '\r' ∉ ((String.join (List.replicate n "  ")) ++ d ++ "\t").toList := by
      simp only [String.toList_append, List.mem_append, not_or]
      exact ⟨⟨indent_cr n, hd⟩, by decide⟩
    have hgen : (String.join (List.replicate n "  ")) ++ d ++ "\n" ++ Tree.prettyKids (n + 1) (unixKids ks) =
        unixText ((String.join (List.replicate n "  ")) ++ d ++ "\n" ++ Tree.prettyKids (n + 1) ks) := by
      rw [unixText_append (no_last hhead), unixText_id hhead, hkids]
    match ks, h, hkids, hgen with
    | [], _, _, _ => rw [Tree.unix, unixKids, Tree.prettyAux, unixText_id hhead]
    | [.tok t], h, _, _ =>
      have ht : t.text.getLast? ≠ some '\r' := h.2.1
      rw [Tree.unix, unixKids, unixKids, Tree.unix, Tree.prettyAux, Tree.prettyAux,
        String.append_assoc (s₂ := String.ofList t.text), unixText_append (no_last hhead'), unixText_id hhead',
        unixText_append (by simpa using ht), unixText_id (a := "\n") (by decide), String.append_assoc]
      congr 2
      simp [unixText, Tok.unix]
    | [.none], _, _, _ =>
      rw [Tree.unix, unixKids, unixKids, Tree.unix, Tree.prettyAux,
        show (String.join (List.replicate n "  ")) ++ d ++ "\tNone\n" =
          ((String.join (List.replicate n "  ")) ++ d ++ "\t") ++ "None\n" by
            rw [String.append_assoc (s₂ := "\t")]; rfl,
        unixText_append (no_last hhead'), unixText_id hhead', unixText_id (a := "None\n") (by decide)]
    | [.node d' ks' sp'], _, _, hgen =>
      rw [Tree.unix]
      simp only [unixKids, Tree.unix] at hgen ⊢
      rw [Tree.prettyAux, Tree.prettyAux]
      · exact hgen
      all_goals simp
    | k1 :: k2 :: ks, _, _, hgen =>
      rw [Tree.unix, two]
      simp only [unixKids] at hgen ⊢
      rw [two]
      exact hgen
theorem prettyKids_unix : ∀ (ts : List Tree) (n : Nat), FineList ts →
    Tree.prettyKids n (unixKids ts) = unixText (Tree.prettyKids n ts)
  | [], n, _ => by rw [unixKids, Tree.prettyKids]; rfl
  | t :: ts, n, h => by
    rw [unixKids, Tree.prettyKids, Tree.prettyKids, pretty_unix t n h.1, prettyKids_unix ts n h.2,
      unixText_append (by rw [pretty_last t n]; decide)]
end

mutual
/-- every word of a tree is printed -/
theorem texts_pretty : ∀ (t : Tree) (n : Nat), ∀ w ∈ t.texts, w <:+: (t.prettyAux n).toList
  | .tok t, n, w, h => by
    simp only [Tree.texts, List.mem_singleton] at h
    subst h
    rw [Tree.prettyAux, String.toList_append, String.toList_append, String.toList_ofList]
    exact ⟨_, _, rfl⟩
  | .none, _, _, h => by simp [Tree.texts] at h
  | .node _ [] _, _, _, h => by simp [Tree.texts, textsOf] at h
  | .node d [.tok t] sp, n, w, h => by
    simp only [Tree.texts, textsOf, List.append_nil, List.mem_singleton] at h
    subst h
    rw [Tree.prettyAux, String.toList_append, String.toList_append, String.toList_ofList]
    exact ⟨_, _, rfl⟩
  | .node _ [.none] _, _, _, h => by simp [Tree.texts, textsOf] at h
  | .node d [.node d' ks' sp'] sp, n, w, h => by
    have := textsOf_pretty [.node d' ks' sp'] (n + 1) w (by simpa [Tree.texts] using h)
    rw [Tree.prettyAux, String.toList_append]
    · exact this.trans (List.suffix_append _ _).isInfix
    all_goals simp
  | .node d (k1 :: k2 :: ks) sp, n, w, h => by
    have := textsOf_pretty (k1 :: k2 :: ks) (n + 1) w (by simpa [Tree.texts] using h)
    rw [Tree.prettyAux, String.toList_append]
    · exact this.trans (List.suffix_append _ _).isInfix
    all_goals simp
theorem textsOf_pretty : ∀ (ts : List Tree) (n : Nat), ∀ w ∈ textsOf ts, w <:+: (Tree.prettyKids n ts).toList
  | [], _, _, h => by simp [textsOf] at h
  | t :: ts, n, w, h => by
    rw [textsOf, List.mem_append] at h
    rw [Tree.prettyKids, String.toList_append]
    rcases h with h | h
    · exact (texts_pretty t n w h).trans (List.prefix_append _ _).isInfix
    · exact (textsOf_pretty ts n w h).trans (List.suffix_append _ _).isInfix
end

theorem HasCrLf.mono {w s : List Char} (h : HasCrLf w) (hi : w <:+: s) : HasCrLf s := by
  obtain ⟨a, b, rfl⟩ := h
  obtain ⟨x, y, rfl⟩ := hi
  exact ⟨x ++ a, b ++ y, by simp⟩

theorem rule_names : ∀ r ∈ rules, '\r' ∉ r.name.toList := by
  have h : rules.all (fun r => !r.name.toList.contains '\r') = true := by decide +kernel
  intro r hr hc
  have := List.all_eq_true.mp h r hr
  rw [List.contains_iff_mem.mpr hc] at this
  simp at this

theorem keepKids_fine {r : Rule} {ts : List Tree} (h : FineList ts) : FineList (keepKids r ts) := by
  rw [fineList_iff] at h ⊢
  intro t ht
  simp only [keepKids, List.mem_append, List.mem_flatMap, List.mem_replicate] at ht
  rcases ht with ⟨⟨i, inline, nones⟩, _, ⟨_, rfl⟩ | ht⟩ | ⟨_, rfl⟩
  · trivial
  · cases hi : ts[i]? with
    | none => rw [hi] at ht; simp at ht
    | some k =>
      rw [hi] at ht
      have hk := h k (List.mem_of_getElem? hi)
      cases inline with
      | false => simp at ht; subst ht; exact hk
      | true =>
        cases k with
        | tok _ => simp at ht
        | none => simp at ht
        | node d ks sp =>
          simp at ht
          exact fineList_iff.mp hk.2 t ht
  · trivial

theorem setSpan_fine {t : Tree} {ts : List Tree} (h : t.Fine) : (setSpan t ts).Fine := by
  unfold setSpan
  split
  · split
    · split <;> exact h
    · exact h
  · exact h

theorem buildNode_fine {r : Rule} (hr : r ∈ rules) {ts : List Tree} (h : FineList ts) :
    (buildNode r ts).Fine := by
  unfold buildNode
  have hk := keepKids_fine (r := r) h
  refine setSpan_fine ?_
  split
  · rename_i k _ e
    rw [e] at hk
    exact hk.1
  · exact ⟨rule_names r hr, hk⟩

/-- all trees of a stack are fine -/
def FineStack (stk : Stack) : Prop := ∀ p ∈ stk, p.2.Fine

theorem feed_fine : ∀ (n : Nat) (stk : Stack) (tk : Tok), FineStack stk → (Tree.tok tk).Fine →
    (∀ stk', feed n stk tk = .shifted stk' → FineStack stk') ∧ (∀ t, feed n stk tk = .accept t → t.Fine) := by
  intro n
  induction n with
  | zero => intro stk tk _ _; exact ⟨fun _ h => by simp [feed] at h, fun _ h => by simp [feed] at h⟩
  | succ n ih =>
    intro stk tk hs ht
    unfold feed
    cases action (topState stk) tk.type with
    | error => exact ⟨fun _ h => by simp at h, fun _ h => by simp at h⟩
    | shift s =>
      simp only
      split
      · exact ⟨fun _ h => by simp at h, fun _ h => by simp at h⟩
      · refine ⟨fun stk' h => ?_, fun _ h => by simp at h⟩
        simp only [FeedRes.shifted.injEq] at h
        subst h
        intro p hp
        rcases List.mem_cons.mp hp with rfl | hp
        · exact ht
        · exact hs p hp
    | reduce r =>
      simp only
      cases hr : rules[r]? with
      | none => exact ⟨fun _ h => by simp at h, fun _ h => by simp at h⟩
      | some rule =>
        simp only
        split
        · exact ⟨fun _ h => by simp at h, fun _ h => by simp at h⟩
        · cases goto (topState (stk.drop rule.rhs.length)) rule.lhs with
          | none => exact ⟨fun _ h => by simp at h, fun _ h => by simp at h⟩
          | some s =>
            have hv : (buildNode rule ((stk.take rule.rhs.length).reverse.map Prod.snd)).Fine := by
              refine buildNode_fine (List.mem_of_getElem? hr) (fineList_iff.mpr ?_)
              intro t ht
              simp only [List.mem_map, List.mem_reverse] at ht
              obtain ⟨p, hp, rfl⟩ := ht
              exact hs p (List.mem_of_mem_take hp)
            simp only
            split
            · refine ⟨fun _ h => by simp at h, fun t h => ?_⟩
              simp only [FeedRes.accept.injEq] at h
              subst h
              exact hv
            · refine ih _ tk ?_ ht
              intro p hp
              rcases List.mem_cons.mp hp with rfl | hp
              · exact hv
              · exact hs p (List.mem_of_mem_drop hp)

theorem parseLoop_fine : ∀ (n : Nat) (stk : Stack) (s : List Char) (l : Nat) (t : Tree), FineStack stk →
    parseLoop n stk s l = .ok t → t.Fine := by
  intro n
  induction n with
  | zero => intro stk s l t _ h; simp [parseLoop] at h
  | succ n ih =>
    intro stk s l t hs h
    unfold parseLoop at h
    cases htk : nextTok (accepts (topState stk)) s.length s l with
    | fail => rw [htk] at h; simp at h
    | eof =>
      rw [htk] at h
      simp only at h
      have hf := feed_fine (feedFuel stk) stk ⟨tEND, [], l, l⟩ hs (by simp [Tree.Fine])
      cases hfe : feed (feedFuel stk) stk ⟨tEND, [], l, l⟩ with
      | accept t' =>
        rw [hfe] at h
        simp only [ParseRes.ok.injEq] at h
        subst h
        exact hf.2 _ hfe
      | shifted _ => rw [hfe] at h; simp at h
      | unexpected => rw [hfe] at h; simp at h
      | stuck => rw [hfe] at h; simp at h
      | fuel => rw [hfe] at h; simp at h
    | tok tk rest =>
      rw [htk] at h
      simp only at h
      obtain ⟨_, x, _, _, hx, hlt, e⟩ := (nextTok_sound (fun t => accepts_lt) _ s l).2 tk rest htk
      have htf : (Tree.tok tk).Fine := by
        show tk.text.getLast? ≠ some '\r'
        rw [e]
        exact hx.last hlt
      have hf := feed_fine (feedFuel stk) stk tk hs htf
      cases hfe : feed (feedFuel stk) stk tk with
      | shifted stk' =>
        rw [hfe] at h
        exact ih stk' rest _ t (hf.1 _ hfe) h
      | accept t' => rw [hfe] at h; simp at h
      | unexpected => rw [hfe] at h; simp at h
      | stuck => rw [hfe] at h; simp at h
      | fuel => rw [hfe] at h; simp at h

theorem larkParse_fine {t : String} {tree : Tree} (h : larkParse t = .ok tree) : tree.Fine :=
  parseLoop_fine _ [] _ _ _ (by intro p hp; simp at hp) h

/-! ### Reading a file -/

theorem universal_eq : ∀ {s : List Char}, NoLoneCr s → universal s = unix s
  | [], _ => rfl
  | c :: s, h => by
    have hs : NoLoneCr s := fun a b e => h (c :: a) b (by rw [e]; rfl)
    rw [universal, unix]
    by_cases hc : c = '\r'
    · subst hc
      have := h [] s rfl
      rw [if_pos rfl, if_pos this, if_pos ⟨rfl, this⟩, universal_eq hs]
    · rw [if_neg hc, if_neg (fun hh => hc hh.1), universal_eq hs]

theorem NoLoneCr.fine {s : List Char} (h : NoLoneCr s) : NoCrCrLf s := by
  rintro ⟨a, b, e⟩
  have := h a ('\r' :: '\n' :: b) (by rw [← e]; simp)
  simp at this

end Pycep
