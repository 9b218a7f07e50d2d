import Verif.Props.ApiProps
import Verif.Proofs.LexBreaks
import Verif.Proofs.ParseComplete
import Verif.Proofs.Examples
/-
Blanks and tabs in front of a text (C47).
-/
namespace Pycep

/-- more fuel does not change the outcome of the parser loop -/
theorem parseLoop_mono (n : Nat) : ∀ (stk : Stack) (s : List Char) (l m : Nat), n ≤ m →
    parseLoop n stk s l ≠ .fuel → parseLoop m stk s l = parseLoop n stk s l := by
  induction n with
  | zero => intro stk s l m _ h; exact absurd rfl h
  | succ n ih =>
    intro stk s l m hm h
    obtain ⟨m, rfl⟩ : ∃ k, m = k + 1 := ⟨m - 1, by omega⟩
    unfold parseLoop at h ⊢
    split
    · rfl
    · rfl
    · rename_i tk rest hn
      rw [hn] at h
      simp only at h
      split
      · rename_i stk' hf
        rw [hf] at h
        exact ih _ _ _ _ (by omega) h
      · rfl
      · rfl
      · rfl

/-- text that the lexer skips in front of everything, without line breaks, does not change what Lark
returns -/
theorem larkParse_skip {x : List Char} {t : String} (hs : ∀ st, Skips st x t.toList) (hx : countNL x = 0) :
    larkParse (String.ofList (x ++ t.toList)) = larkParse t := by
  have h0 := (parseLoop_sound (t.toList.length + 1) [] [] t.toList 1 (Inv.init) (by omega)).2.1
  unfold larkParse
  rw [String.toList_ofList]
  have h1 : ∀ n, parseLoop (n + 1) [] (x ++ t.toList) 1 = parseLoop (n + 1) [] t.toList 1 := by
    intro n
    unfold parseLoop
    rw [hs, hx]
  rw [h1, parseLoop_mono (t.toList.length + 1) _ _ _ _ (by simp) h0]

theorem skips_blanks : ∀ {x : List Char}, (∀ c ∈ x, c = ' ' ∨ c = '\t') → ∀ (s : List Char) (st : Nat), Skips st x s
  | [], _, s, st => by intro l; simp [countNL]
  | c :: x, h, s, st => by
    intro l
    have hc : isBlank c = true := by
      rcases h c (by simp) with rfl | rfl <;> rfl
    have h1 := skips_blank (st := st) (c := c) (s := x ++ s) hc l
    have h2 := skips_blanks (x := x) (fun d hd => h d (by simp [hd])) s st (l + countNL [c])
    rw [List.cons_append]
    rw [show c :: (x ++ s) = [c] ++ (x ++ s) from rfl, h1, h2]
    congr 1
    rw [show c :: x = [c] ++ x from rfl]; simp only [countNL, List.count_append]; omega

theorem isValid_blanks {x : List Char} (hx : '\'' ∉ x) (t : String) :
    isValid (String.ofList (x ++ t.toList)) = isValid t := by
  have h := occ_countSub t.toList.length t.toList (Nat.le_refl _)
  rw [isValid_iff h]
  refine isValid_iff ?_
  rw [String.toList_ofList]
  induction x with
  | nil => exact h
  | cons c x ih =>
    refine .miss (fun y hy => ?_) (ih fun hm => hx (List.mem_cons_of_mem _ hm))
    have : c = '\'' := (List.cons.inj hy).1
    exact hx (by simp [this])

/-- **C47.** Blanks and tabs in front of a non-empty text change neither the result nor the exception. -/
theorem leading_blanks (P : Parser) {x : List Char} {t : String} (ht : t ≠ "")
    (hx : ∀ c ∈ x, c = ' ' ∨ c = '\t') :
    P.parse (some (String.ofList x ++ t)) .none = P.parse (some t) .none := by
  have e : String.ofList x ++ t = String.ofList (x ++ t.toList) := by
    apply String.toList_inj.mp; simp
  have hne : String.ofList x ++ t ≠ "" := by
    intro h
    apply ht
    have := congrArg String.toList h
    apply String.toList_inj.mp
    simp at this
    simpa using this.2
  have hq : '\'' ∉ x := fun h => by rcases hx _ h with h | h <;> cases h
  have hn : countNL x = 0 := by
    clear * - hx
    unfold countNL
    rw [List.count_eq_zero]
    intro h
    rcases hx _ h with h | h <;> cases h
  have h1 : chosenText (some (String.ofList x ++ t)) .none = .ok (String.ofList x ++ t) := by
    unfold chosenText; simp
  have h2 : chosenText (some t) .none = .ok t := by unfold chosenText; simp
  rw [parse_eq, parse_eq, createTree'_eq, createTree'_eq, h1, h2]
  simp only [Except.bind]
  rw [e, isValid_blanks hq, larkParse_skip (fun st => skips_blanks hx _ st) hn]

/-- **C47, for files.** The same for the text of a file, which may be empty. -/
theorem leading_blanks_file (P : Parser) {x : List Char} {t name : String} {text : Option String}
    (ht : text = .none ∨ text = some "") (hx : ∀ c ∈ x, c = ' ' ∨ c = '\t') :
    P.parse text (some ⟨name, .ok (String.ofList x ++ t)⟩) = P.parse text (some ⟨name, .ok t⟩) := by
  have e : String.ofList x ++ t = String.ofList (x ++ t.toList) := by
    apply String.toList_inj.mp; simp
  have hq : '\'' ∉ x := fun h => by rcases hx _ h with h | h <;> cases h
  have hn : countNL x = 0 := by
    unfold countNL
    rw [List.count_eq_zero]
    intro h
    rcases hx _ h with h | h <;> cases h
  rw [parse_eq, parse_eq, createTree'_eq, createTree'_eq]
  rcases ht with rfl | rfl <;>
  · simp only [chosenText, Except.bind]
    rw [e, isValid_blanks hq, larkParse_skip (fun st => skips_blanks hx _ st) hn]

/-- an example: with line numbers, and with an error -/
example : Parser.parse ⟨true⟩ (some " \t  var x = 1\n") .none =
    .ok (.dict [("globals", .dict [("scope", .dict [("value", .str "resourceGroup"),
        ("__start_line__", .int 0), ("__end_line__", .int 0)])]),
      ("variables", .dict [("x", .dict [("decorators", .list []), ("value", .int 1),
        ("__start_line__", .int 1), ("__end_line__", .int 1)])])]) ∧
    Parser.parse ⟨true⟩ (some " \t  var = 1\n") .none = .error .unexpectedInput :=
  ⟨eq_of_outIs (by decide +kernel), eq_of_errIs (by decide +kernel)⟩

end Pycep
