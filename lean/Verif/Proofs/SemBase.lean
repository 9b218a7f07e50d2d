import Verif.Spec.Sem
import Verif.Proofs.Core
import Mathlib.Data.List.Induction
import Mathlib.Data.List.Nodup
/-
Facts about values and the small functions of the model used to show that the transformer computes
the meaning of a program.
-/
namespace Pycep

/-! ### Dictionaries -/

theorem dSet_map_mem {ks : List String} (hn : ks.Nodup) (f : String → Val) (k : String) (v : Val)
    (hk : k ∈ ks) : dSet k v (ks.map (fun x => (x, f x))) =
      ks.map (fun x => (x, if x = k then v else f x)) := by
  induction ks with
  | nil => simp at hk
  | cons a ks ih =>
    simp only [List.map_cons, dSet]
    by_cases h : a = k
    · subst h
      have ha : a ∉ ks := (List.nodup_cons.mp hn).1
      simp only [if_true, List.cons.injEq, true_and]
      refine List.map_congr_left fun x hx => ?_
      rw [if_neg]
      rintro rfl; exact ha hx
    · have hk' : k ∈ ks := by
        rcases List.mem_cons.mp hk with rfl | h'
        · exact absurd rfl h
        · exact h'
      rw [if_neg h, if_neg h, ih (List.nodup_cons.mp hn).2 hk']

theorem dSet_map_not_mem {ks : List String} (f : String → Val) (k : String) (v : Val)
    (hk : k ∉ ks) : dSet k v (ks.map (fun x => (x, f x))) =
      ks.map (fun x => (x, f x)) ++ [(k, v)] := by
  induction ks with
  | nil => rfl
  | cons a ks ih =>
    have h1 : a ≠ k := fun h => hk (h ▸ List.mem_cons_self)
    simp only [List.map_cons, dSet, if_neg h1, List.cons_append, ih (fun h => hk (List.mem_cons_of_mem _ h))]

theorem eraseDups_concat (l : List String) (k : String) :
    (l ++ [k]).eraseDups = if k ∈ l then l.eraseDups else l.eraseDups ++ [k] := by
  rw [List.eraseDups_append]
  by_cases h : k ∈ l
  · rw [if_pos h]
    have : [k].removeAll l = [] := by simp [List.removeAll, h]
    rw [this]; simp
  · rw [if_neg h]
    have : [k].removeAll l = [k] := by simp [List.removeAll, h]
    rw [this]; simp [List.eraseDups_cons]

theorem nodup_eraseDups (l : List String) : l.eraseDups.Nodup := by
  induction l using List.reverseRecOn with
  | nil => simp
  | append_singleton l k ih =>
    rw [eraseDups_concat]
    split
    · exact ih
    · rename_i h
      rw [List.nodup_append]
      refine ⟨ih, by simp, ?_⟩
      intro a ha b hb
      simp only [List.mem_singleton] at hb
      subst hb
      rintro rfl
      exact h (List.mem_eraseDups.mp ha)

theorem mkDict_concat (ps : List (String × Val)) (p : String × Val) :
    mkDict (ps ++ [p]) = dSet p.1 p.2 (mkDict ps) := by
  simp [mkDict, List.foldl_append]

/-- A dict display is the last-wins dictionary of its items. -/
theorem mkDict_eq (ps : List (String × Val)) : mkDict ps = lastWins ps := by
  induction ps using List.reverseRecOn with
  | nil => rfl
  | append_singleton ps p ih =>
    obtain ⟨k, v⟩ := p
    rw [mkDict_concat, ih]
    unfold lastWins
    simp only [List.map_append, List.map_cons, List.map_nil, List.reverse_append, List.reverse_cons,
      List.reverse_nil, List.nil_append, List.cons_append, eraseDups_concat, List.lookup_cons]
    have hmem : k ∈ (ps.map Prod.fst).eraseDups ↔ k ∈ ps.map Prod.fst := List.mem_eraseDups
    split
    · rename_i h
      rw [dSet_map_mem (nodup_eraseDups _) _ _ _ (hmem.mpr h)]
      refine List.map_congr_left fun x hx => ?_
      by_cases hxk : x = k
      · simp [hxk]
      · simp [hxk, beq_eq_false_iff_ne.mpr hxk]
    · rename_i h
      rw [dSet_map_not_mem _ _ _ (fun h' => h (hmem.mp h'))]
      simp only [List.map_append, List.map_cons, List.map_nil, beq_self_eq_true, Option.getD_some]
      congr 1
      refine List.map_congr_left fun x hx => ?_
      have hxk : x ≠ k := by rintro rfl; exact h (List.mem_eraseDups.mp hx)
      simp [beq_eq_false_iff_ne.mpr hxk]

theorem lastWins_keys (ps : List (String × Val)) :
    (lastWins ps).map Prod.fst = (ps.map Prod.fst).eraseDups := by
  simp [lastWins, Function.comp_def]

theorem eraseDups_of_nodup {l : List String} (h : l.Nodup) : l.eraseDups = l := by
  induction l using List.reverseRecOn with
  | nil => simp
  | append_singleton l k ih =>
    rw [List.nodup_append] at h
    have hk : k ∉ l := fun hk => h.2.2 k hk k (by simp) rfl
    rw [eraseDups_concat, if_neg hk, ih h.1]

theorem lookup_of_nodup {ps : List (String × Val)} (h : (ps.map Prod.fst).Nodup) {p : String × Val}
    (hp : p ∈ ps) : ps.lookup p.1 = some p.2 := by
  induction ps with
  | nil => simp at hp
  | cons q ps ih =>
    rw [List.map_cons, List.nodup_cons] at h
    rw [List.lookup_cons]
    rcases List.mem_cons.mp hp with rfl | hp
    · simp
    · have : p.1 ≠ q.1 := by
        intro e; exact h.1 (e ▸ List.mem_map_of_mem hp)
      simp only [beq_eq_false_iff_ne.mpr this]
      exact ih h.2 hp

/-- Distinct keys: nothing is overwritten. -/
theorem lastWins_of_nodup {ps : List (String × Val)} (h : (ps.map Prod.fst).Nodup) :
    lastWins ps = ps := by
  unfold lastWins
  rw [eraseDups_of_nodup h, List.map_map]
  conv => rhs; rw [← List.map_id ps]
  refine List.map_congr_left fun p hp => ?_
  have hr : (ps.reverse.map Prod.fst).Nodup := by
    rw [List.map_reverse]; exact List.nodup_reverse.mpr h
  have := lookup_of_nodup hr (List.mem_reverse.mpr hp)
  simp [this]

theorem mkDict_of_nodup {ps : List (String × Val)} (h : (ps.map Prod.fst).Nodup) :
    mkDict ps = ps := by rw [mkDict_eq, lastWins_of_nodup h]

/-! ### Numbered keys -/

theorem enumKeys_eq (pre : String) (vs : List Val) (n : Nat) :
    enumKeys pre n vs = numbered pre n vs := by
  induction vs generalizing n with
  | nil => rfl
  | cons v vs ih => simp [enumKeys, numbered, ih]

theorem pre_toString_inj {pre : String} {a b : Nat} (h : pre ++ toString a = pre ++ toString b) :
    a = b := by
  have h' : (pre ++ toString a).toList = (pre ++ toString b).toList := by rw [h]
  rw [String.toList_append, String.toList_append, List.append_cancel_left_eq] at h'
  have h2 : toString a = toString b := String.toList_inj.mp h'
  have h3 : Nat.toDigits 10 a = Nat.toDigits 10 b := by
    have := congrArg String.toList h2
    simpa using this
  rw [← Nat.ofDigitChars_toDigits (n := a) (by decide : 1 < 10) (by decide), h3,
    Nat.ofDigitChars_toDigits (by decide) (by decide)]

theorem numbered_key {pre : String} {n : Nat} {vs : List Val} {k : String}
    (h : k ∈ (numbered pre n vs).map Prod.fst) : ∃ m, n ≤ m ∧ k = pre ++ toString m := by
  induction vs generalizing n with
  | nil => simp [numbered] at h
  | cons v vs ih =>
    simp only [numbered, List.map_cons, List.mem_cons] at h
    rcases h with rfl | h
    · exact ⟨n, Nat.le_refl _, rfl⟩
    · obtain ⟨m, hm, e⟩ := ih h
      exact ⟨m, by omega, e⟩

theorem numbered_nodup (pre : String) (n : Nat) (vs : List Val) :
    ((numbered pre n vs).map Prod.fst).Nodup := by
  induction vs generalizing n with
  | nil => simp [numbered]
  | cons v vs ih =>
    simp only [numbered, List.map_cons, List.nodup_cons]
    refine ⟨fun h => ?_, ih _⟩
    obtain ⟨m, hm, e⟩ := numbered_key h
    have := pre_toString_inj e
    omega

theorem numbered_map (pre : String) (n : Nat) (vs : List Val) (f : Val → Val) :
    numbered pre n (vs.map f) = (numbered pre n vs).map (fun p => (p.1, f p.2)) := by
  induction vs generalizing n with
  | nil => rfl
  | cons v vs ih => simp [numbered, ih]

/-! ### Strings -/

theorem sliceBoth_quote (b : List Char) : sliceBoth 1 (String.ofList (quote b)) = txt b := by
  simp [sliceBoth, quote, txt]

theorem sanitize_quote3 (b : List Char) :
    sanitizeMultiLine (String.ofList (quote3 b)) = txt (dropNewline b) := by
  have h : sliceBoth 3 (String.ofList (quote3 b)) = String.ofList b := by
    simp [sliceBoth, quote3]
  unfold sanitizeMultiLine
  rw [h]
  unfold removePrefix
  have hn : "\n".toList = ['\n'] := rfl
  simp only [String.toList_ofList, hn]
  cases b with
  | nil => rfl
  | cons c b =>
    by_cases hc : c = '\n'
    · subst hc; simp [dropNewline]
    · have : (['\n'].isPrefixOf (c :: b)) = false := by
        simp [List.isPrefixOf]; exact fun h => hc h.symm
      rw [this]
      have hd : dropNewline (c :: b) = c :: b := by
        unfold dropNewline; split
        · rename_i h; cases h; exact absurd rfl hc
        · rfl
      simp [hd]

theorem removeSuffix_paren (f : List Char) :
    removeSuffix "(" (String.ofList (f ++ ['('])) = txt f := by
  have hn : "(".toList = ['('] := rfl
  unfold removeSuffix
  simp only [String.toList_ofList, hn]
  rw [if_pos]
  · simp
  · rw [List.isSuffixOf_iff_suffix]; exact ⟨f, rfl⟩

/-! ### Integers -/

theorem isAsciiDigit_iff {c : Char} : isAsciiDigit c = true ↔ 48 ≤ c.toNat ∧ c.toNat ≤ 57 := by
  simp [isAsciiDigit, inRange]

theorem digitVal_ascii {c : Char} (h : isAsciiDigit c = true) : digitVal c = some (c.toNat - 48) := by
  have := isAsciiDigit_iff.mp h
  unfold digitVal
  rw [if_pos (by omega), if_pos this]

theorem digitsOf_ascii {d : List Char} (h : ∀ c ∈ d, isAsciiDigit c = true) (pre : Bool)
    (hp : pre = true ∨ d ≠ []) : digitsOf pre d = some (d.map (fun c => c.toNat - 48)) := by
  induction d generalizing pre with
  | nil =>
    rcases hp with rfl | hp
    · rfl
    · exact absurd rfl hp
  | cons c d ih =>
    have hc := h c (by simp)
    have h_ : c ≠ '_' := by rintro rfl; simp [isAsciiDigit, inRange] at hc
    unfold digitsOf
    rw [if_neg h_, digitVal_ascii hc]
    simp only
    rw [ih (fun x hx => h x (List.mem_cons_of_mem _ hx)) true (.inl rfl)]
    rfl

theorem digit_not_space {c : Char} (h : isAsciiDigit c = true) : isPySpace c = false := by
  have := isAsciiDigit_iff.mp h
  unfold isPySpace
  rw [if_pos (by omega)]
  simp
  omega

theorem intOfStr_digits (d : Digits) : intOfStr (String.ofList d.1) =
    if d.1.length ≤ intMaxStrDigits then .ok (decimal d.1 : Int) else .error (.valueError "") := by
  obtain ⟨d, hne, hd⟩ := d
  simp only
  unfold intOfStr
  simp only [String.toList_ofList]
  have h1 : d.dropWhile isPySpace = d := by
    cases d with
    | nil => rfl
    | cons c d => simp [digit_not_space (hd c (by simp))]
  have h2 : d.reverse.dropWhile isPySpace = d.reverse := by
    cases hr : d.reverse with
    | nil => rfl
    | cons c r =>
      have : c ∈ d := by rw [← List.mem_reverse, hr]; simp
      simp [digit_not_space (hd c this)]
  rw [h1, h2, List.reverse_reverse]
  cases d with
  | nil => exact absurd rfl hne
  | cons c d =>
    have hc := isAsciiDigit_iff.mp (hd c (by simp))
    have hm : c ≠ '-' := by rintro rfl; simp at hc
    have hp : c ≠ '+' := by rintro rfl; simp at hc
    have hneg : splitSign (c :: d) = (false, c :: d) := by
      unfold splitSign
      split
      · rename_i h; cases h; exact absurd rfl hm
      · rename_i h; cases h; exact absurd rfl hp
      · rfl
    rw [hneg]
    simp only
    rw [digitsOf_ascii hd false (.inr hne)]
    simp only [List.length_map, Bool.false_eq_true, if_false]
    have hdec : ofDigits10 ((c :: d).map (fun c => c.toNat - 48)) = decimal (c :: d) := by
      unfold ofDigits10 decimal
      rw [Nat.ofDigits_eq_foldr]
      rw [List.map_reverse, List.foldr_reverse]
      simp [Nat.add_comm]
    rw [hdec]
    split
    · rw [if_neg (by omega)]
    · rw [if_pos (by omega)]

end Pycep
