import Verif.Proofs.LexStrings
import Verif.Proofs.DeclComplete
/-
The lexer and the parser together accept every clearly written text of a program.
-/
namespace Pycep

theorem Fits.lt {p t x s} (h : Fits p t x s) : t < tEND ∧ x ≠ [] := by
  cases h with
  | ident hx => exact ⟨by decide, hx.ne_nil⟩
  | keyword hk => exact ⟨(keyword_facts t hk).1, (keyword_ident hk).ne_nil⟩
  | op1 ht =>
    obtain ⟨h1, h2, _⟩ := op_facts t (List.mem_append_left _ ht)
    exact ⟨h1, (fixed_re h1 h2).2⟩
  | op2 ht =>
    obtain ⟨h1, h2, _⟩ := op_facts t (List.mem_append_right _ ht)
    exact ⟨h1, (fixed_re h1 h2).2⟩
  | importAll => exact ⟨by decide, by simp⟩
  | function hx => exact ⟨by decide, by obtain ⟨q, n, rfl, _⟩ := hx; simp⟩
  | listFunction _ hne => exact ⟨by decide, hne⟩
  | int hne => exact ⟨by decide, hne⟩
  | decorator hx => exact ⟨by decide, by obtain ⟨q, n, rfl, _, h, _⟩ := hx; simp [h]⟩
  | lineEnd hx => exact ⟨by decide, hx.ne_nil⟩
  | lineBreak _ hx => exact ⟨by decide, hx.ne_nil⟩
  | quoted => exact ⟨by decide, by simp⟩
  | multiLine => exact ⟨by decide, by simp⟩

/-- A token that fits is found in every state that can use it. -/
theorem Fits.finds {p t x s st} (h : Fits p t x s) (hs : st < numStates) (hp : prevOf st = p)
    (hle : p ≤ tEND) (ha : acts st t = true) : Finds st t x s := by
  have ok : stateOK p st = true := by rw [← hp]; exact stateOK_of hs (by rw [hp]; exact hle)
  cases h with
  | ident hx hs h1 h2 hr h3 => exact finds_ident ok ha hx hs h1 h2 hr h3
  | keyword hk hs h1 => exact finds_keyword ok ha hk hs h1
  | op1 ht hs => exact finds_op1 ok ha ht hs
  | op2 ht => exact finds_op2 ha ht
  | importAll => exact finds_importAll ok ha
  | function hx h3 => exact finds_function ok ha hx h3
  | listFunction hc hne hx hs => exact finds_listFunction ha hc hne hx hs
  | int hne hx hs h1 => exact finds_int ok ha hne hx hs h1
  | decorator hx hs h1 => exact finds_decorator ok ha hx hs h1
  | lineEnd hx hs => exact finds_lineEnd ha hx hs
  | lineBreak hp hx hs => exact finds_lineBreak ok hp ha hx hs
  | quoted hx hb ht => exact finds_quoted ok ha hx hb ht
  | multiLine hx => exact finds_multi ha hx

theorem Gap.ne_nil {x s} (h : Gap x s) : x ≠ [] := by cases h <;> simp

theorem Feeds.skip {p x s l w} (hx : ∀ st, Skips st x s) (hne : x ≠ [])
    (h : Feeds p s (l + countNL x) w) : Feeds p (x ++ s) l w := by
  have hpos := List.length_pos_iff.mpr hne
  cases h with
  | eof hf =>
    refine .eof fun st h1 h2 h3 => ?_
    rw [hx st l]; exact hf st h1 h2 h3
  | tok hlt hlen hf hw =>
    refine .tok hlt (by simp; omega) (fun st h1 h2 h3 => ?_) hw
    rw [hx st l]; exact hf st h1 h2 h3

theorem Layout.feeds {p s l w} (h : Layout p s l w) : p ≤ tEND → Feeds p s l w := by
  induction h with
  | nil => intro _; exact .eof fun st _ _ _ => by simp [nextTok]
  | gap hg _ ih => intro hp; exact Feeds.skip hg.skips hg.ne_nil (ih hp)
  | tok hf _ ih =>
    intro hp
    obtain ⟨h1, h2⟩ := hf.lt
    have hpos := List.length_pos_iff.mpr h2
    refine .tok h1 (by simp; omega) (fun st hs hst ha => ?_) (ih (by omega))
    exact hf.finds hs hst hp (by simpa [acts] using ha) _

/-- Every clearly written text of a program is parsed as that program. -/
theorem larkParse_layout {text : String} {p : Program} {w} (hl : Layout tEND text.toList 1 w)
    (hp : ProgSyn p w tEND) (hc : p.clear = true) :
    ∃ t, larkParse text = .ok t ∧ t.core = p.tree := by
  obtain ⟨t, hd, ht⟩ := hp.derives hc
  exact ⟨t, larkParse_complete (hl.feeds (Nat.le_refl _)) hd, ht⟩

end Pycep
