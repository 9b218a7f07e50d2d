import Verif.Props.Override
import Verif.Props.Moved
import Verif.Props.Between
/-
C94 with line numbers: declarations that are overridden later can be commented out.
-/
namespace Pycep

theorem chainNames_later (k : Nat) (n : String) (rs : List Nested) :
    chainNames n (rs.map (Nested.later k)) = chainNames n rs := by
  induction rs generalizing n with
  | nil => rfl
  | cons r rs ih =>
    rw [List.map_cons, chainNames, chainNames, ih]
    rfl

theorem down_places (k : Nat) (d : Decl) : (d.down k).places = d.places := by
  cases d <;> rfl

theorem down_nestsNot {k : Nat} {d : Decl} {n : String} (h : d.NestsNot n) : (d.down k).NestsNot n := by
  intro ds x b ex c e
  cases d <;> simp only [Decl.down, reduceCtorEq] at e
  rename_i c'
  cases e
  obtain ⟨rs, hc, hn⟩ := h _ _ _ _ _ rfl
  exact ⟨_, chain_down hc, by rwa [chainNames_later]⟩

theorem down_nests {k : Nat} {d : Decl} {n : String} (h : d.Nests n) : (d.down k).Nests n := by
  obtain ⟨ds, x, b, ex, c, rs, rfl, hc, hn⟩ := h
  exact ⟨_, _, _, _, _, _, rfl, chain_down hc, by rwa [chainNames_later]⟩

theorem overridden_down {p q : Program} (h : p.OverriddenBy q) (j k : Nat) :
    Program.OverriddenBy (p.down j) (q.down k) := by
  intro x' hx'
  obtain ⟨x, hx, rfl⟩ := List.mem_map.mp hx'
  obtain ⟨h1, h2⟩ := h x hx
  refine ⟨fun s hs => ?_, fun n => ?_⟩
  · rw [down_places] at hs
    obtain ⟨y, hy, hs⟩ := h1 s hs
    exact ⟨_, List.mem_map_of_mem hy, by rwa [down_places]⟩
  · exact (h2 n).imp down_nestsNot fun ⟨y, hy, hn⟩ => ⟨_, List.mem_map_of_mem hy, down_nests hn⟩

/-- **C94, with line numbers.** A part of a document whose declarations are all overridden further down can be replaced by
comments of as many lines: if the document is accepted, so is the other one, and the results are equal, line
numbers included, up to the order of sections and of names. -/
theorem C94_commented (P : Parser) {x q x' q'} {t1 t2 t3 s : String} {p1 p2 p3 : Program} (w1 : Writes t1 p1)
    (w2 : Writes t2 p2) (w3 : Writes t3 p3) (c1 : p1.clear = true) (c2 : p2.clear = true) (c3 : p3.clear = true)
    (e1 : EndsLine t1.toList) (e2 : EndsLine t2.toList) (b2 : NoBreak t2.toList) (b3 : NoBreak t3.toList)
    (hs : Idle s.toList) (bs : NoBreak s.toList) (es : EndsLine s.toList)
    (hk : s.toList.count '\n' = t2.toList.count '\n')
    {n1 n3 m : Nat} (o1 : Occ t1.toList n1) (o3 : Occ t3.toList n3) (os : Occ s.toList m)
    (m1 : n1 % 2 = 0) (m3 : n3 % 2 = 0) (hm : m % 2 = 0) (ho : p2.OverriddenBy p3)
    (h : chosenText x q = .ok (t1 ++ t2 ++ t3)) (h' : chosenText x' q' = .ok (t1 ++ s ++ t3)) {v}
    (hv : P.parse x q = .ok v) : ∃ v', P.parse x' q' = .ok v' ∧ Reordered v v' := by
  have v1 : isValid t1 = true := by rw [isValid_iff o1, m1]; rfl
  have v3 : isValid t3 = true := by rw [isValid_iff o3, m3]; rfl
  have vs : isValid s = true := by rw [isValid_iff os, hm]; rfl
  have w123 := (w1.append w2 e1 b2).append w3 (endsLine_both e1 e2) b3
  have c123 := Program.clear_append _ _ (Program.clear_append _ _ c1
    (show Program.clear (p2.down (countNL t1.toList)) = true by rw [Program.down_clear, c2]))
    (show Program.clear (p3.down (countNL (t1 ++ t2).toList)) = true by rw [Program.down_clear, c3])
  have hval : Program.val P.addLineNumbers (p1 ++ p2.down (countNL t1.toList) ++ p3.down (countNL (t1 ++ t2).toList)) =
      .ok v := by
    have hvalid : isValid (t1 ++ t2 ++ t3) = true := by
      rcases parse_cases P x q with
        ⟨e, _, h2⟩ | ⟨_, _, _, _, h2, _⟩ | ⟨_, _, _, h2⟩ | ⟨t', _, h2, hv2, _⟩
      · rw [hv] at h2; cases h2
      · rw [hv] at h2; cases h2
      · rw [hv] at h2; cases h2
      · rw [h] at h2; cases h2; exact hv2
    rw [parse_writes _ h hvalid w123 c123] at hv
    generalize Program.val P.addLineNumbers _ = r at hv ⊢
    cases r with
    | ok w => cases hv; rfl
    | error e => cases e <;> cases hv
  obtain ⟨v', hv', hr⟩ := overridden_val (overridden_down ho _ _) hval
  refine ⟨v', ?_, hr⟩
  rw [parse_writes _ h' (by
      rw [isValid_append (endsLine_both e1 es) (by rw [isValid_append e1 v1, vs]), v3])
      (writes_between w1 w3 e1 hs bs es b3) (Program.clear_append _ _ c1 (by rw [Program.down_clear, c3])),
    show countNL t1.toList + countNL s.toList = countNL (t1 ++ t2).toList by
      rw [String.toList_append, countNL_append]; exact congrArg _ hk, hv']
  rfl

/-! ### A concrete case -/

example : ∃ v v', (Parser.mk true).parse (some "var x=1\nvar x=2\n") .none = .ok v ∧
    (Parser.mk true).parse (some "//ar x=1\nvar x=2\n") .none = .ok v' ∧ Reordered v v' := by
  obtain ⟨_, _, w2⟩ := exOver1_writes
  obtain ⟨_, _, w3⟩ := exOver2_writes
  have he : Writes "" [] := ⟨[], .nil, .nil⟩
  have hv : (Parser.mk true).parse (some "var x=1\nvar x=2\n") .none =
      .ok (.dict [("globals", .dict [("scope", .dict [("value", .str "resourceGroup"), ("__start_line__", .int 0),
          ("__end_line__", .int 0)])]),
        ("variables", .dict [("x", .dict [("decorators", .list []), ("value", .int 2), ("__start_line__", .int 2),
          ("__end_line__", .int 2)])])]) := eq_of_outIs (by decide +kernel)
  have i : Idle "//ar x=1\n".toList := by
    have := idle_comment (c := "ar x=1".toList) (by decide +kernel); exact this
  obtain ⟨v', h1, h2⟩ := C94_commented (Parser.mk true) (t1 := "") (t2 := "var x=1\n") (t3 := "var x=2\n") (s := "//ar x=1\n")
    he w2 w3 rfl rfl rfl (.inl (by decide +kernel)) (.inr (by decide +kernel)) ⟨by decide +kernel, by decide +kernel⟩
    ⟨by decide +kernel, by decide +kernel⟩ i ⟨by decide +kernel, by decide +kernel⟩ (.inr (by decide +kernel))
    (by decide +kernel) (occ_no_quote (by decide +kernel)) (occ_no_quote (by decide +kernel))
    (occ_no_quote (by decide +kernel)) rfl rfl rfl
    (by simp [Program.OverriddenBy, Decl.places, Decl.declares, Decl.ownName, Decl.NestsNot])
    (by rw [show "" ++ "var x=1\n" ++ "var x=2\n" = "var x=1\nvar x=2\n" by decide +kernel]; rfl)
    (x' := some "//ar x=1\nvar x=2\n") (q' := .none)
    (by rw [show "" ++ "//ar x=1\n" ++ "var x=2\n" = "//ar x=1\nvar x=2\n" by decide +kernel]; rfl) hv
  exact ⟨_, v', hv, h1, h2⟩

end Pycep
