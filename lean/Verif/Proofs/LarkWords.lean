import Verif.Proofs.LarkTerms
import Verif.Proofs.Unless
import Verif.Proofs.SynErr
/-
The lexer cuts a text as the terminals of the grammar file say.
-/
namespace Pycep.Lark

theorem Agree.length {ds es} (h : Agree ds es) : ds.length = es.length := by
  induction h <;> simp_all

/-- Two terminals agree. -/
inductive Agree1 : TermDef → Terminal → Prop where
  | str {n name s str} : name = String.ofList n → str = String.ofList s →
      Agree1 ⟨n, 0, .str s⟩ (Terminal.ofStr name str)
  | re {n name p src r} : name = String.ofList n → Reads src r →
      Agree1 ⟨n, p, .re src⟩ (Terminal.ofRe name p r)

theorem Agree.get {ds es} (h : Agree ds es) : ∀ {t : Nat} {e}, es[t]? = some e →
    ∃ d, ds[t]? = some d ∧ Agree1 d e := by
  induction h with
  | nil => intro t e he; simp at he
  | str h1 h2 _ ih =>
    intro t e he
    cases t with
    | zero => simp at he; subst he; exact ⟨_, rfl, .str h1 h2⟩
    | succ t => simpa using ih (by simpa using he)
  | re h1 h2 _ ih =>
    intro t e he
    cases t with
    | zero => simp at he; subst he; exact ⟨_, rfl, .re h1 h2⟩
    | succ t => simpa using ih (by simpa using he)

theorem agree_at {t} (ht : t < tEND) :
    ∃ d e, larkTerms[t]? = some d ∧ term? t = some e ∧ Agree1 d e := by
  have hlen : terminals.length = tEND := by decide
  obtain ⟨e, he⟩ : ∃ e, terminals[t]? = some e := ⟨_, List.getElem?_eq_getElem (by omega)⟩
  obtain ⟨d, hd, ha⟩ := terms_agree.get he
  exact ⟨d, e, hd, he, ha⟩

theorem Agree1.regex {d e} (h : Agree1 d e) : ∃ r, d.pat.regex = some r ∧ r.Same e.re := by
  cases h with
  | str h1 h2 =>
    refine ⟨_, rfl, ?_⟩
    subst h2
    intro rec s k
    simp [Terminal.ofStr]
  | re h1 h2 =>
    obtain ⟨rx, h3, h4⟩ := h2
    exact ⟨_, by simp [Pat.regex, h3], h4⟩

theorem regexOf_at {t} (ht : t < tEND) : ∃ r, regexOf larkTerms t = some r ∧ r.Same (termRe t) := by
  obtain ⟨d, e, hd, he, ha⟩ := agree_at ht
  obtain ⟨r, hr, hs⟩ := ha.regex
  exact ⟨r, by simp [regexOf, hd, hr], by simpa [termRe, he] using hs⟩

theorem Same.matchIn {a b a' b' : Re} (h : a.Same b) (h' : a'.Same b') (s : List Char) :
    Re.matchIn a a' s = Re.matchIn b b' s := by
  have hrec : ∀ n, recMatcher a n = recMatcher b n := by
    intro n
    induction n with
    | zero => rfl
    | succ n ih => funext s k; simp [recMatcher, ih, h _ _ _]
  unfold Re.matchIn
  rw [hrec, h']

theorem covers_iff {r k} (hr : r < tEND) (hk : k < tEND) : Covers larkTerms r k ↔ k ∈ unlessIds r := by
  obtain ⟨d, e, hd, he, ha⟩ := agree_at hr
  obtain ⟨d', e', hd', he', ha'⟩ := agree_at hk
  obtain ⟨re, h1, h2⟩ := ha.regex
  have hx := unlessIds_spec r hr k hk
  rw [he, he'] at hx
  simp only at hx
  rw [← List.contains_iff_mem, hx]
  have hre : regexOf larkTerms r = some re := by simp [regexOf, hd, h1]
  constructor
  · rintro ⟨n, m, p, src, s, re', g1, g2, g3, g4⟩
    rw [hd] at g1; rw [hd'] at g2; rw [hre] at g3
    cases g1; cases g2; cases g3
    cases ha with
    | re a1 a2 =>
      cases ha' with
      | str b1 b2 =>
        subst b2
        rw [Same.matchIn h2 h2] at g4
        simp only [Terminal.ofRe] at g4
        simp [unlessPair, Terminal.ofRe, Terminal.ofStr, g4]
  · intro h
    unfold unlessPair at h
    cases ha with
    | str => simp [Terminal.ofStr] at h
    | re a1 a2 =>
      cases ha' with
      | re => simp [Terminal.ofRe] at h
      | str b1 b2 =>
        subst b2
        simp only [Terminal.ofRe, Terminal.ofStr, Bool.and_eq_true, beq_iff_eq, String.toList_ofList] at h
        obtain ⟨rfl, h⟩ := h
        refine ⟨_, _, _, _, _, re, hd, hd', hre, ?_⟩
        rw [Same.matchIn h2 h2]
        exact h

theorem tried_iff {acc : List Nat} (hacc : ∀ t ∈ acc, t < tEND) {k} :
    Tried larkTerms acc k ↔ k ∈ scanIds acc := by
  unfold Tried scanIds embedded
  simp only [List.mem_filter, Bool.not_eq_true', List.any_eq_false, List.contains_iff_mem]
  refine and_congr_right fun hk => forall₂_congr fun r hr => ?_
  rw [covers_iff (hacc r hr) (hacc k hk)]

theorem alternation_at {ids : List Nat} (h : ∀ t ∈ ids, t < tEND) :
    ∃ top, alternation larkTerms ids = some top ∧ top.Same (scanRe ids) := by
  induction ids with
  | nil => exact ⟨_, rfl, fun _ _ _ => rfl⟩
  | cons t ids ih =>
    obtain ⟨top, h1, h2⟩ := ih fun t ht => h t (List.mem_cons_of_mem _ ht)
    obtain ⟨r, h3, h4⟩ := regexOf_at (h t List.mem_cons_self)
    refine ⟨.alt r top, by simp [alternation, h1, h3], fun rec s k => ?_⟩
    show orElse _ _ = orElse _ _
    rw [h4, h2]; rfl

theorem scan_first {acc : List Nat} (hacc : ∀ t ∈ acc, t < tEND) (hord : acc.Pairwise (· < ·))
    {s t rest} (h : scanWith (scanRe (scanIds acc)) (scanIds acc) s = some (t, rest)) :
    First larkTerms acc s t rest := by
  have hmem := (scanWith_sound h).1
  have hlt : ∀ t ∈ scanIds acc, t < tEND := fun t ht => hacc t (List.mem_filter.mp ht).1
  obtain ⟨top, h1, h2⟩ := alternation_at hlt
  obtain ⟨re, h3, h4⟩ := regexOf_at (hlt t hmem)
  have hp : (scanIds acc).Pairwise (· < ·) := hord.filter _
  refine ⟨top, re, ⟨scanIds acc, hp, fun k => (tried_iff hacc).symm, h1⟩, (tried_iff hacc).mpr hmem,
    h3, ?_, ?_⟩
  · rw [Same.matchIn h2 h4]; exact scanWith_match h
  · intro k hk ht
    have hk' := (tried_iff hacc).mp ht
    obtain ⟨re', h5, h6⟩ := regexOf_at (hlt k hk')
    refine ⟨re', h5, ?_⟩
    rw [Same.matchIn h2 h6]
    generalize scanRe (scanIds acc) = top' at h
    generalize scanIds acc = ids at h hp hk'
    induction ids with
    | nil => cases h
    | cons i ids ih =>
      unfold scanWith at h
      rw [List.pairwise_cons] at hp
      split at h
      · simp only [Option.some.injEq, Prod.mk.injEq] at h
        obtain ⟨rfl, rfl⟩ := h
        rcases List.mem_cons.mp hk' with rfl | hk'
        · omega
        · have := hp.1 k hk'; omega
      · rename_i hn
        rcases List.mem_cons.mp hk' with rfl | hk'
        · exact hn
        · exact ih h hp.2 hk'

theorem retype_becomes {acc : List Nat} (hacc : ∀ t ∈ acc, t < tEND) {t} (ht : t < tEND) (x : List Char) :
    Becomes larkTerms acc t x (retype acc t x) := by
  have key : ∀ k, Keyword larkTerms acc t x k ↔ k ∈ acc ∧ k ∈ unlessIds t ∧
      (match term? k with
        | some d => d.strVal == some (String.ofList x)
        | .none => false) = true := by
    intro k
    unfold Keyword
    refine and_congr_right fun hk => ?_
    rw [covers_iff ht (hacc k hk)]
    refine and_congr_right fun hu => ?_
    obtain ⟨d, e, hd, he, ha⟩ := agree_at (hacc k hk)
    rw [hd, he]
    cases ha with
    | str h1 h2 =>
      subst h2
      simp only [Option.some.injEq, TermDef.mk.injEq, Pat.str.injEq, Terminal.ofStr, beq_iff_eq,
        String.ofList_inj]
      exact ⟨fun ⟨_, _, _, _, h⟩ => h, fun h => ⟨_, _, rfl, rfl, h⟩⟩
    | re => simp [Terminal.ofRe]
  unfold retype
  split
  · rename_i k hk
    left
    rw [key]
    have hmem := List.mem_of_find?_eq_some hk
    have hp := List.find?_some hk
    simp only [List.mem_filter, List.contains_iff_mem] at hmem
    exact ⟨hmem.1, hmem.2, hp⟩
  · rename_i hn
    refine .inr ⟨rfl, fun k hk => ?_⟩
    rw [key] at hk
    rw [List.find?_eq_none] at hn
    exact hn k (by simp only [List.mem_filter, List.contains_iff_mem]; exact ⟨hk.1, hk.2.1⟩) hk.2.2

/-- The tokens behind which the lexer is asked. -/
def stackOf (w : List Tok) : Stack :=
  w.foldl (fun stk tk => match feed (feedFuel stk) stk tk with | .shifted stk' => stk' | _ => stk) []

theorem Fed.stackOf {w stk} (h : Fed w stk) : stackOf w = stk := by
  induction h with
  | nil => rfl
  | snoc _ hf ih => rw [Lark.stackOf, List.foldl_append, ← Lark.stackOf, ih]; simp [hf]

/-- The terminals that are acceptable behind some tokens. -/
def acceptable (w : List Tok) : List Nat := accepts (topState (stackOf w))

theorem accepts_sorted (st : Nat) : (accepts st).Pairwise (· < ·) :=
  List.pairwise_lt_range.filter _

theorem nextTok_cut {ign : Nat → Prop} (hign : ∀ t < tEND, ign t ↔ t ∈ ignoreIds)
    {pre : List Tok} : ∀ (n : Nat) (s : List Char) (l : Nat),
    (nextTok (acceptable pre) n s l = .eof → Cut larkTerms ign acceptable pre l s []) ∧
    (∀ tk rest w, nextTok (acceptable pre) n s l = .tok tk rest →
      Cut larkTerms ign acceptable (pre ++ [tk]) tk.endLine rest w →
      Cut larkTerms ign acceptable pre l s (tk :: w)) := by
  have hacc : ∀ t ∈ acceptable pre, t < tEND := fun t ht => accepts_lt ht
  intro n
  induction n with
  | zero =>
    intro s l
    cases s with
    | nil => exact ⟨fun _ => .nil, by intro tk rest w h; simp [nextTok] at h⟩
    | cons c s => exact ⟨by simp [nextTok], by intro tk rest w h; simp [nextTok] at h⟩
  | succ n ih =>
    intro s l
    cases s with
    | nil => exact ⟨fun _ => .nil, by intro tk rest w h; simp [nextTok] at h⟩
    | cons c s =>
      unfold nextTok
      simp only
      cases hs : scanWith (scanRe (scanIds (acceptable pre))) (scanIds (acceptable pre)) (c :: s) with
      | none => exact ⟨by simp, by simp⟩
      | some p =>
        obtain ⟨t, rest⟩ := p
        simp only
        obtain ⟨hmem, x, hx, hlang⟩ := scanWith_sound hs
        have ht : t < tEND := hacc t (List.mem_filter.mp hmem).1
        have hxt : (c :: s).take ((c :: s).length - rest.length) = x := by
          rw [hx]; simp
        have hne : x ≠ [] := termRe_ne_nil ht hlang
        have hfirst := scan_first hacc (accepts_sorted _) hs
        rw [hx] at hfirst
        split
        · rw [hxt]
          cases hi : ignoreIds.contains t with
          | true =>
            simp only [if_true]
            have hig := (hign t ht).mpr (by simpa using hi)
            obtain ⟨ih1, ih2⟩ := ih rest (l + countNL x)
            refine ⟨fun h => ?_, fun tk r w h hc => ?_⟩
            · rw [hx]; exact .skip hne hfirst hig (ih1 h)
            · rw [hx]; exact .skip hne hfirst hig (ih2 tk r w h hc)
          | false =>
            have hig : ¬ ign t := by rw [hign t ht]; simpa using hi
            refine ⟨by simp, fun tk r w h hc => ?_⟩
            simp only [Bool.false_eq_true, if_false, LexRes.tok.injEq] at h
            obtain ⟨rfl, rfl⟩ := h
            rw [hx]
            exact .tok hne hfirst hig (retype_becomes hacc ht x) hc
        · exact ⟨by simp, by simp⟩

theorem parseLoop_cut {ign : Nat → Prop} (hign : ∀ t < tEND, ign t ↔ t ∈ ignoreIds)
    {t : Tree} (n : Nat) : ∀ (stk : Stack) (w : List Tok) (s : List Char) (l : Nat),
    Fed w stk → parseLoop n stk s l = .ok t → ∃ w', Cut larkTerms ign acceptable w l s w' ∧
      DerL [N.start] [t] (w ++ w') tEND := by
  induction n with
  | zero => intro stk w s l _ h; simp [parseLoop] at h
  | succ n ih =>
    intro stk w s l hfed h
    unfold parseLoop at h
    have hacc : acceptable w = accepts (topState stk) := by rw [acceptable, Fed.stackOf hfed]
    have hcut := nextTok_cut hign (pre := w) s.length s l
    rw [hacc] at hcut
    have hinv := hfed.inv
    cases hn : nextTok (accepts (topState stk)) s.length s l with
    | fail => simp [hn] at h
    | eof =>
      simp only [hn] at h
      obtain ⟨f1, f2, f3⟩ := feed_spec (feedFuel stk) stk w ⟨tEND, [], l, l⟩ (hinv _)
      cases hf : feed (feedFuel stk) stk ⟨tEND, [], l, l⟩ with
      | accept t' =>
        simp only [hf, ParseRes.ok.injEq] at h
        subst h
        exact ⟨[], hcut.1 hn, by simpa using (f2 _ hf).1⟩
      | shifted stk' => simp [hf] at h
      | unexpected => simp [hf] at h
      | stuck => simp [hf] at h
      | fuel => simp [hf] at h
    | tok tk rest =>
      simp only [hn] at h
      cases hf : feed (feedFuel stk) stk tk with
      | shifted stk' =>
        simp only [hf] at h
        obtain ⟨w', hw, hd⟩ := ih stk' (w ++ [tk]) rest tk.endLine (.snoc hfed hf) h
        exact ⟨tk :: w', hcut.2 tk rest w' hn hw, by simpa using hd⟩
      | accept t' => simp [hf] at h
      | unexpected => simp [hf] at h
      | stuck => simp [hf] at h
      | fuel => simp [hf] at h

theorem Cut.type_lt {terms ign pre l s w} (h : Cut terms ign acceptable pre l s w) :
    ∀ u ∈ w, u.type < 128 := by
  induction h with
  | nil => simp
  | skip _ _ _ _ ih => exact ih
  | tok _ hf _ hb _ ih =>
    intro u hu
    rcases List.mem_cons.mp hu with rfl | hu
    · have : ∀ {pre : List Tok} {t}, t ∈ acceptable pre → t < 128 :=
        fun ht => Nat.lt_of_lt_of_le (accepts_lt ht) (by decide)
      rcases hb with hb | ⟨rfl, _⟩
      · exact this hb.1
      · obtain ⟨_, _, _, ht, _⟩ := hf
        exact this ht.1
    · exact ih u hu

end Pycep.Lark
