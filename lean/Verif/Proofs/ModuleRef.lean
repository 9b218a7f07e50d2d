import Verif.Spec.ModuleRef
/-
The classification of module references accepts exactly the specified forms.
-/
namespace Pycep

/-- how a text fits a pattern: deterministic, without backtracking -/
inductive PieceFits : List Piece → List Char → List (String × String) → Prop where
  | nil {s} : PieceFits [] s []
  | lit {l ps s gs} : PieceFits ps s gs → PieceFits (.lit l :: ps) (l.toList ++ s) gs
  | grp {n P ps x s gs} : Component P x → Ends P s → PieceFits ps s gs →
      PieceFits (.grp n P :: ps) (x ++ s) ((n, String.ofList x) :: gs)

/-- every group is followed by a text that does not begin with one of its characters -/
def Separated : List Piece → Prop
  | [] => True
  | .lit _ :: ps => Separated ps
  | [.grp _ _] => True
  | .grp _ P :: .lit l :: ps => (∃ c r, l.toList = c :: r ∧ P c = false) ∧ Separated ps
  | .grp _ _ :: .grp _ _ :: _ => False

theorem tryLens_none {α} {k : List Char → Option α} {s : List Char} :
    ∀ {n}, (∀ m, 0 < m → m ≤ n → k (s.drop m) = .none) → tryLens k s n = .none
  | 0, _ => rfl
  | n + 1, h => by
    rw [tryLens, h (n + 1) (by omega) (by omega)]
    exact tryLens_none (fun m h1 h2 => h m h1 (by omega))

/-- only the longest choice can succeed -/
theorem tryLens_top {α} {k : List Char → Option α} {s : List Char} {n : Nat}
    (h : ∀ m, 0 < m → m < n → k (s.drop m) = .none) (m : Nat) (r : α) :
    tryLens k s n = some (m, r) ↔ 0 < n ∧ m = n ∧ k (s.drop n) = some r := by
  cases n with
  | zero => simp [tryLens]
  | succ n =>
    rw [tryLens]
    cases hk : k (s.drop (n + 1)) with
    | none =>
      simp only [reduceCtorEq, and_false, iff_false]
      rw [tryLens_none (fun m h1 h2 => h m h1 (by omega))]
      simp
    | some r' =>
      simp only [Option.some.injEq, Prod.mk.injEq]
      constructor
      · rintro ⟨rfl, rfl⟩; simp
      · rintro ⟨_, rfl, rfl⟩; simp

theorem takeWhile_all {P : Char → Bool} {s : List Char} {c : Char} (h : c ∈ s.takeWhile P) : P c = true :=
  List.all_eq_true.mp (List.all_takeWhile (p := P) (l := s)) c h

theorem takeWhile_fits {P : Char → Bool} {x s : List Char} (hx : Component P x) (hs : Ends P s) :
    (x ++ s).takeWhile P = x := by
  rw [List.takeWhile_append_of_pos hx.2]
  cases s with
  | nil => simp
  | cons c s => rw [List.takeWhile_cons_of_neg (by simp [hs c rfl])]; simp

theorem takeWhile_component {P : Char → Bool} {s : List Char} (h : 0 < (s.takeWhile P).length) :
    Component P (s.take (s.takeWhile P).length) ∧ Ends P (s.drop (s.takeWhile P).length) := by
  have h1 : s.take (s.takeWhile P).length = s.takeWhile P := by
    calc s.take (s.takeWhile P).length
        = (s.takeWhile P ++ s.dropWhile P).take (s.takeWhile P).length := by rw [List.takeWhile_append_dropWhile]
      _ = _ := List.take_left
  have h2 : s.drop (s.takeWhile P).length = s.dropWhile P := by
    calc s.drop (s.takeWhile P).length
        = (s.takeWhile P ++ s.dropWhile P).drop (s.takeWhile P).length := by rw [List.takeWhile_append_dropWhile]
      _ = _ := List.drop_left
  rw [h1, h2]
  refine ⟨⟨List.ne_nil_of_length_pos h, fun c hc => takeWhile_all hc⟩, fun c hc => ?_⟩
  have := List.head?_dropWhile_not P s
  rw [hc] at this
  exact this

theorem grp_iff {n : String} {P : Char → Bool} {ps : List Piece} {s : List Char} {gs : List (String × String)}
    (ih : ∀ s gs, matchPieces ps s = some gs ↔ PieceFits ps s gs)
    (hno : ps = [] ∨ ∀ c s, P c = true → matchPieces ps (c :: s) = .none) :
    matchPieces (.grp n P :: ps) s = some gs ↔ PieceFits (.grp n P :: ps) s gs := by
  rw [matchPieces]
  set w := (s.takeWhile P).length with hw
  have key : ∀ m r, tryLens (matchPieces ps) s w = some (m, r) ↔
      0 < w ∧ m = w ∧ matchPieces ps (s.drop w) = some r := by
    intro m r
    rcases hno with rfl | hno
    · cases hw' : w with
      | zero => simp [tryLens]
      | succ w =>
        rw [tryLens]
        simp only [matchPieces, Option.some.injEq, Prod.mk.injEq, Nat.zero_lt_succ, true_and]
        exact ⟨fun h => ⟨h.1.symm, h.2⟩, fun h => ⟨h.1.symm, h.2⟩⟩
    · refine tryLens_top (fun j h1 h2 => ?_) m r
      have hle : w ≤ s.length := by rw [hw]; exact (List.takeWhile_prefix P).length_le
      have hlt : j < s.length := by omega
      rw [List.drop_eq_getElem_cons hlt]
      refine hno _ _ ?_
      have hmem : s[j] ∈ s.takeWhile P := by
        have hpre := List.takeWhile_prefix (p := P) (l := s)
        have : (s.takeWhile P)[j] = s[j] := hpre.getElem h2
        rw [← this]; exact List.getElem_mem _
      exact takeWhile_all hmem
  constructor
  · intro h
    cases ht : tryLens (matchPieces ps) s w with
    | none => rw [ht] at h; cases h
    | some q =>
      obtain ⟨m, r⟩ := q
      rw [ht] at h
      obtain ⟨h1, rfl, h3⟩ := (key m r).mp ht
      cases h
      obtain ⟨h4, h5⟩ := takeWhile_component h1
      have := PieceFits.grp (n := n) h4 h5 ((ih _ _).mp h3)
      rwa [List.take_append_drop] at this
  · intro h
    cases h with
    | @grp _ _ _ x s gs hx hs hf =>
      have hwx : w = x.length := by rw [hw, takeWhile_fits hx hs]
      have := (key w gs).mpr ⟨by rw [hwx]; exact List.length_pos_iff.mpr hx.1, rfl, by
        rw [hwx, List.drop_left]; exact (ih _ _).mpr hf⟩
      rw [this]
      simp only [Option.some.injEq, List.cons.injEq, Prod.mk.injEq, and_true, true_and]
      rw [hwx, List.take_left]

theorem lit_iff {l : String} {ps : List Piece} {s : List Char} {gs : List (String × String)}
    (ih : ∀ s gs, matchPieces ps s = some gs ↔ PieceFits ps s gs) :
    matchPieces (.lit l :: ps) s = some gs ↔ PieceFits (.lit l :: ps) s gs := by
  rw [matchPieces]
  split
  · rename_i h
    obtain ⟨r, rfl⟩ := List.isPrefixOf_iff_prefix.mp h
    rw [List.drop_left, ih]
    constructor
    · exact .lit
    · intro h
      generalize hx : l.toList ++ r = x at h
      cases h with
      | lit h => rw [List.append_cancel_left hx]; exact h
  · rename_i h
    simp only [reduceCtorEq, false_iff]
    intro hf
    generalize hx : s = x at hf
    cases hf with
    | lit _ => subst hx; exact h (List.isPrefixOf_iff_prefix.mpr (List.prefix_append ..))

theorem lit_none {l : String} {ps : List Piece} {c d : Char} {r s : List Char} (hl : l.toList = c :: r) (h : d ≠ c) :
    matchPieces (.lit l :: ps) (d :: s) = .none := by
  rw [matchPieces, if_neg]
  rw [hl]
  simp [List.isPrefixOf, Ne.symm h]

/-- **matching without backtracking** -/
theorem matchPieces_iff : ∀ (ps : List Piece), Separated ps → ∀ s gs,
    matchPieces ps s = some gs ↔ PieceFits ps s gs
  | [], _ => by
    intro s gs
    rw [matchPieces]
    constructor
    · intro h; cases h; exact .nil
    · intro h; cases h; rfl
  | .lit l :: ps, h => fun s gs => lit_iff (matchPieces_iff ps h)
  | [.grp n P], _ => fun s gs => grp_iff (matchPieces_iff [] trivial) (.inl rfl)
  | .grp n P :: .lit l :: ps, h => fun s gs =>
    grp_iff (fun s gs => lit_iff (matchPieces_iff ps h.2)) (.inr (by
      obtain ⟨⟨c, r, hl, hP⟩, _⟩ := h
      intro d s hd
      exact lit_none hl (by rintro rfl; rw [hP] at hd; cases hd)))
  | .grp n P :: .grp _ _ :: ps, h => h.elim

/-! ### the five patterns -/

theorem begins_iff {pre fp : String} : startsWith pre fp = true ↔ Begins pre fp.toList := by
  unfold startsWith Begins
  rw [List.isPrefixOf_iff_prefix]
  exact ⟨fun ⟨r, h⟩ => ⟨r, h.symm⟩, fun ⟨r, h⟩ => ⟨r, h.symm⟩⟩

theorem word_colon : isWordRe ':' = false := by decide +kernel
theorem word_dot : isWordRe '.' = false := by decide +kernel
theorem word_slash : isWordRe '/' = false := by decide +kernel

theorem sep_brAlias : Separated brAliasPat :=
  ⟨⟨':', [], by decide +kernel, by decide +kernel⟩, ⟨':', [], by decide +kernel, by decide +kernel⟩, trivial⟩
theorem sep_brPublic : Separated brPublicPat := ⟨⟨':', [], by decide +kernel, by decide +kernel⟩, trivial⟩
theorem sep_brPrivate : Separated brPrivatePat :=
  ⟨⟨'.', "azurecr.io/".toList, by decide +kernel, by decide +kernel⟩, ⟨':', [], by decide +kernel, by decide +kernel⟩, trivial⟩
theorem sep_tsAlias : Separated tsAliasPat :=
  ⟨⟨':', [], by decide +kernel, by decide +kernel⟩, ⟨':', [], by decide +kernel, by decide +kernel⟩, trivial⟩
theorem sep_ts : Separated tsPat :=
  ⟨⟨'/', [], by decide +kernel, by decide +kernel⟩, ⟨'/', [], by decide +kernel, by decide +kernel⟩,
    ⟨':', [], by decide +kernel, by decide +kernel⟩, trivial⟩

theorem class1 : cWordSlashDashDot = wordAnd "/-." := by
  funext c; simp [cWordSlashDashDot, wordAnd, Bool.or_assoc, beq_eq_decide]
theorem class2 : cWordSlashDash = wordAnd "/-" := by
  funext c; simp [cWordSlashDash, wordAnd, Bool.or_assoc, beq_eq_decide]
theorem class3 : cWordDotDash = wordAnd ".-" := by
  funext c; simp [cWordDotDash, wordAnd, Bool.or_assoc, beq_eq_decide]
theorem class4 : cRgId = wordAnd "._-()" := by
  funext c; simp [cRgId, wordAnd, Bool.or_assoc, beq_eq_decide]
theorem class5 : cDigitDash = digitDash := rfl

/-- three components -/
theorem fits3 {l1 l2 l3 n1 n2 n3 : String} {P1 P2 P3 : Char → Bool} {s gs} :
    PieceFits [.lit l1, .grp n1 P1, .lit l2, .grp n2 P2, .lit l3, .grp n3 P3] s gs ↔
      ∃ x y z rest, Component P1 x ∧ Ends P1 (l2.toList ++ (y ++ (l3.toList ++ (z ++ rest)))) ∧
        Component P2 y ∧ Ends P2 (l3.toList ++ (z ++ rest)) ∧ Component P3 z ∧ Ends P3 rest ∧
        s = l1.toList ++ (x ++ (l2.toList ++ (y ++ (l3.toList ++ (z ++ rest))))) ∧
        gs = [(n1, String.ofList x), (n2, String.ofList y), (n3, String.ofList z)] := by
  constructor
  · rintro (_ | ⟨_ | _ | ⟨hx, ex, _ | ⟨_ | _ | ⟨hy, ey, _ | ⟨_ | _ | ⟨hz, ez, _ | _⟩⟩⟩⟩⟩⟩)
    exact ⟨_, _, _, _, hx, ex, hy, ey, hz, ez, rfl, rfl⟩
  · rintro ⟨x, y, z, rest, hx, ex, hy, ey, hz, ez, rfl, rfl⟩
    exact .lit (.grp hx ex (.lit (.grp hy ey (.lit (.grp hz ez .nil)))))

/-- two components -/
theorem fits2 {l1 l2 n1 n2 : String} {P1 P2 : Char → Bool} {s gs} :
    PieceFits [.lit l1, .grp n1 P1, .lit l2, .grp n2 P2] s gs ↔
      ∃ x y rest, Component P1 x ∧ Ends P1 (l2.toList ++ (y ++ rest)) ∧ Component P2 y ∧ Ends P2 rest ∧
        s = l1.toList ++ (x ++ (l2.toList ++ (y ++ rest))) ∧
        gs = [(n1, String.ofList x), (n2, String.ofList y)] := by
  constructor
  · rintro (_ | ⟨_ | _ | ⟨hx, ex, _ | ⟨_ | _ | ⟨hy, ey, _ | _⟩⟩⟩⟩)
    exact ⟨_, _, _, hx, ex, hy, ey, rfl, rfl⟩
  · rintro ⟨x, y, rest, hx, ex, hy, ey, rfl, rfl⟩
    exact .lit (.grp hx ex (.lit (.grp hy ey .nil)))

/-- four components -/
theorem fits4 {l1 l2 l3 l4 n1 n2 n3 n4 : String} {P1 P2 P3 P4 : Char → Bool} {s gs} :
    PieceFits [.lit l1, .grp n1 P1, .lit l2, .grp n2 P2, .lit l3, .grp n3 P3, .lit l4, .grp n4 P4] s gs ↔
      ∃ x y z u rest, Component P1 x ∧ Ends P1 (l2.toList ++ (y ++ (l3.toList ++ (z ++ (l4.toList ++ (u ++ rest)))))) ∧
        Component P2 y ∧ Ends P2 (l3.toList ++ (z ++ (l4.toList ++ (u ++ rest)))) ∧
        Component P3 z ∧ Ends P3 (l4.toList ++ (u ++ rest)) ∧ Component P4 u ∧ Ends P4 rest ∧
        s = l1.toList ++ (x ++ (l2.toList ++ (y ++ (l3.toList ++ (z ++ (l4.toList ++ (u ++ rest))))))) ∧
        gs = [(n1, String.ofList x), (n2, String.ofList y), (n3, String.ofList z), (n4, String.ofList u)] := by
  constructor
  · rintro (_ | ⟨_ | _ | ⟨hx, ex, _ | ⟨_ | _ | ⟨hy, ey, _ | ⟨_ | _ | ⟨hz, ez, _ | ⟨_ | _ | ⟨hu, eu, _ | _⟩⟩⟩⟩⟩⟩⟩⟩)
    exact ⟨_, _, _, _, _, hx, ex, hy, ey, hz, ez, hu, eu, rfl, rfl⟩
  · rintro ⟨x, y, z, u, rest, hx, ex, hy, ey, hz, ez, hu, eu, rfl, rfl⟩
    exact .lit (.grp hx ex (.lit (.grp hy ey (.lit (.grp hz ez (.lit (.grp hu eu .nil)))))))

theorem ends_of {P : Char → Bool} {l : String} {c : Char} {r s : List Char} (hl : l.toList = c :: r) (hc : P c = false) :
    Ends P (l.toList ++ s) := by
  rw [hl]; intro d hd; cases hd; exact hc

theorem not_begins {p q : String} (h : ∀ s t, p.toList ++ s ≠ q.toList ++ t) (b : List Char) :
    startsWith p (String.ofList (q.toList ++ b)) = false := by
  rw [Bool.eq_false_iff]
  intro hs
  obtain ⟨r, hr⟩ := begins_iff.mp hs
  rw [String.toList_ofList] at hr
  exact h _ _ hr.symm

theorem begins {q : String} (b : List Char) : startsWith q (String.ofList (q.toList ++ b)) = true :=
  begins_iff.mpr ⟨b, by simp⟩

theorem slice3 {q : String} (hq : q.toList.length = 3) (b : List Char) :
    sliceFrom 3 (String.ofList (q.toList ++ b)) = String.ofList b := by
  unfold sliceFrom
  rw [String.toList_ofList, ← hq, List.drop_left]

/-- what is reported for a reference -/
def refVal (ty : String) (de : List (String × Val)) : Val := .dict [("type", .str ty), ("detail", .dict de)]

/-- not both public and private -/
theorem public_private {x y reg : List Char} (hr : Component isWordRe reg)
    (h : "mcr.microsoft.com/".toList ++ x = reg ++ (".azurecr.io/".toList ++ y)) : False := by
  have h1 : ("mcr".toList ++ (".microsoft.com/".toList ++ x)).takeWhile isWordRe = "mcr".toList :=
    takeWhile_fits ⟨by decide, by decide +kernel⟩ (ends_of (c := '.') (r := "microsoft.com/".toList) (by decide +kernel) word_dot)
  have h2 : (reg ++ (".azurecr.io/".toList ++ y)).takeWhile isWordRe = reg :=
    takeWhile_fits hr (ends_of (c := '.') (r := "azurecr.io/".toList) (by decide +kernel) word_dot)
  have h3 : "mcr.microsoft.com/".toList ++ x = "mcr".toList ++ (".microsoft.com/".toList ++ x) := rfl
  rw [h3] at h
  rw [← h, h1] at h2
  subst h2
  have h4 := List.append_cancel_left h
  simp at h4

theorem br_public {b : List Char} {gs} (h : PieceFits brPublicPat ("br:".toList ++ b) gs) :
    ∃ path tag rest, Component (wordAnd "/-") path ∧ Component (wordAnd ".-") tag ∧ Ends (wordAnd ".-") rest ∧
      b = "mcr.microsoft.com/".toList ++ path ++ ":".toList ++ tag ++ rest ∧
      gs = [("path", String.ofList path), ("tag", String.ofList tag)] := by
  obtain ⟨x, y, rest, hx, _, hy, hr, hs, rfl⟩ := fits2.mp h
  rw [class2] at hx
  rw [class3] at hy hr
  refine ⟨x, y, rest, hx, hy, hr, ?_, rfl⟩
  have : "br:mcr.microsoft.com/".toList = "br:".toList ++ "mcr.microsoft.com/".toList := rfl
  rw [this, List.append_assoc] at hs
  rw [List.append_cancel_left hs]
  simp only [List.append_assoc]

theorem classify_sound {b : List Char} {v : Val} (h : classifyModulePath (String.ofList b) = .ok v) :
    ∃ ty de, ModuleRef b ty de ∧ v = refVal ty de := by
  unfold classifyModulePath at h
  split at h
  · rename_i hp
    obtain ⟨b, hb⟩ := begins_iff.mp hp
    rw [String.toList_ofList] at hb
    subst hb
    rw [slice3 (by decide), String.toList_ofList] at h
    split at h
    · rename_i m hm
      obtain ⟨path, tag, rest, h1, h2, h3, h4, rfl⟩ := br_public ((matchPieces_iff _ sep_brPublic _ _).mp hm)
      cases h
      exact ⟨_, _, .publicRegistry h1 h2 h3 h4, by simp [refVal, group, List.lookup, comp]⟩
    · split at h
      · rename_i m hm
        obtain ⟨x, y, z, rest, hx, _, hy, _, hz, hr, hs, rfl⟩ := fits3.mp ((matchPieces_iff _ sep_brPrivate _ _).mp hm)
        rw [class1] at hy
        rw [class3] at hz hr
        cases h
        refine ⟨_, _, .privateRegistry hx hy hz hr ?_, by simp [refVal, group, List.lookup, comp]⟩
        rw [List.append_cancel_left hs]; simp only [List.append_assoc]
      · cases h
  split at h
  · rename_i hp
    obtain ⟨b, hb⟩ := begins_iff.mp hp
    rw [String.toList_ofList] at hb
    subst hb
    rw [slice3 (by decide), String.toList_ofList] at h
    split at h
    · cases h
    · rename_i m hm
      obtain ⟨x, y, z, rest, hx, _, hy, _, hz, hr, hs, rfl⟩ := fits3.mp ((matchPieces_iff _ sep_brAlias _ _).mp hm)
      rw [class1] at hy
      rw [class3] at hz hr
      cases h
      refine ⟨_, _, .registryAlias hx hy hz hr ?_, ?_⟩
      · rw [List.append_cancel_left hs]; simp only [List.append_assoc]
      · have : (Val.str (String.ofList x)).eqStr "public" = (x == "public".toList) := by
          simp only [Val.eqStr]
          rw [Bool.eq_iff_iff, beq_iff_eq, beq_iff_eq]
          constructor
          · intro h; have := congrArg String.toList h; simpa using this
          · rintro rfl; rfl
        simp [refVal, group, List.lookup, comp]
        exact this
  split at h
  · rename_i hp
    obtain ⟨b, hb⟩ := begins_iff.mp hp
    rw [String.toList_ofList] at hb
    subst hb
    rw [slice3 (by decide), String.toList_ofList] at h
    split at h
    · cases h
    · rename_i m hm
      obtain ⟨x, y, z, u, rest, hx, _, hy, _, hz, _, hu, hr, hs, rfl⟩ := fits4.mp ((matchPieces_iff _ sep_ts _ _).mp hm)
      rw [class5] at hx
      rw [class4] at hy
      rw [class3] at hz hu hr
      cases h
      refine ⟨_, _, .spec hx hy hz hu hr ?_, by simp [refVal, group, List.lookup, comp]⟩
      rw [List.append_cancel_left hs]; simp only [List.append_assoc]
  split at h
  · rename_i hp
    obtain ⟨b, hb⟩ := begins_iff.mp hp
    rw [String.toList_ofList] at hb
    subst hb
    rw [slice3 (by decide), String.toList_ofList] at h
    split at h
    · cases h
    · rename_i m hm
      obtain ⟨x, y, z, rest, hx, _, hy, _, hz, hr, hs, rfl⟩ := fits3.mp ((matchPieces_iff _ sep_tsAlias _ _).mp hm)
      rw [class2] at hy
      rw [class3] at hz hr
      cases h
      refine ⟨_, _, .specAlias hx hy hz hr ?_, by simp [refVal, group, List.lookup, comp]⟩
      rw [List.append_cancel_left hs]; simp only [List.append_assoc]
  rename_i h1 h2 h3 h4
  cases h
  refine ⟨_, _, .file ?_, rfl⟩
  intro pre hpre hb
  have hs : startsWith pre (String.ofList b) = true := begins_iff.mpr (by rwa [String.toList_ofList])
  simp only [List.mem_cons, List.not_mem_nil, or_false] at hpre
  rcases hpre with rfl | rfl | rfl | rfl <;> contradiction

theorem classify_complete {b : List Char} {ty : String} {de : List (String × Val)} (h : ModuleRef b ty de) :
    classifyModulePath (String.ofList b) = .ok (refVal ty de) := by
  have colon : ":".toList = [':'] := by decide
  have slash : "/".toList = ['/'] := by decide
  cases h with
  | file hno =>
    have h : ∀ pre ∈ ["br:", "br/", "ts:", "ts/"], startsWith pre (String.ofList b) = false := by
      intro pre hpre
      rw [Bool.eq_false_iff]
      intro hs
      exact hno pre hpre (by have := begins_iff.mp hs; rwa [String.toList_ofList] at this)
    unfold classifyModulePath
    rw [h _ (by simp), h _ (by simp), h _ (by simp), h _ (by simp)]
    rfl
  | @publicRegistry b path tag rest h1 h2 h3 h4 =>
    have hm : matchPieces brPublicPat ("br:".toList ++ b) = some [("path", String.ofList path), ("tag", String.ofList tag)] := by
      refine (matchPieces_iff _ sep_brPublic _ _).mpr (fits2.mpr ⟨path, tag, rest, class2 ▸ h1,
        ends_of colon (by decide +kernel), class3 ▸ h2, class3 ▸ h3, ?_, rfl⟩)
      rw [h4]; simp only [List.append_assoc]; rfl
    unfold classifyModulePath
    rw [begins, slice3 (by decide), String.toList_ofList, hm]
    simp [refVal, group, List.lookup, comp]
  | @privateRegistry b reg path tag rest h1 h2 h3 h4 h5 =>
    have hm : matchPieces brPrivatePat ("br:".toList ++ b) = some [("registry_name", String.ofList reg),
        ("path", String.ofList path), ("tag", String.ofList tag)] := by
      refine (matchPieces_iff _ sep_brPrivate _ _).mpr (fits3.mpr ⟨reg, path, tag, rest, h1,
        ends_of (c := '.') (r := "azurecr.io/".toList) (by decide +kernel) word_dot, class1 ▸ h2,
        ends_of colon (by decide +kernel), class3 ▸ h3, class3 ▸ h4, ?_, rfl⟩)
      rw [h5]; simp only [List.append_assoc]
    have hn : matchPieces brPublicPat ("br:".toList ++ b) = .none := by
      cases hp : matchPieces brPublicPat ("br:".toList ++ b) with
      | none => rfl
      | some gs =>
        obtain ⟨p', t', r', _, _, _, h6, _⟩ := br_public ((matchPieces_iff _ sep_brPublic _ _).mp hp)
        rw [h5] at h6
        simp only [List.append_assoc] at h6
        exact (public_private h1 h6.symm).elim
    unfold classifyModulePath
    rw [begins, slice3 (by decide), String.toList_ofList, hn, hm]
    simp [refVal, group, List.lookup, comp]
  | @registryAlias b al path tag rest h1 h2 h3 h4 h5 =>
    have hm : matchPieces brAliasPat ("br/".toList ++ b) = some [("alias", String.ofList al),
        ("path", String.ofList path), ("tag", String.ofList tag)] := by
      refine (matchPieces_iff _ sep_brAlias _ _).mpr (fits3.mpr ⟨al, path, tag, rest, h1,
        ends_of colon (by decide +kernel), class1 ▸ h2,
        ends_of colon (by decide +kernel), class3 ▸ h3, class3 ▸ h4, ?_, rfl⟩)
      rw [h5]; simp only [List.append_assoc]
    unfold classifyModulePath
    rw [not_begins (by simp), begins, slice3 (by decide), String.toList_ofList, hm]
    have : (Val.str (String.ofList al)).eqStr "public" = (al == "public".toList) := by
      simp only [Val.eqStr]
      rw [Bool.eq_iff_iff, beq_iff_eq, beq_iff_eq]
      constructor
      · intro h; have := congrArg String.toList h; simpa using this
      · rintro rfl; rfl
    rw [← this]
    simp [refVal, group, List.lookup, comp]
  | @spec b sub rg name version rest h1 h2 h3 h4 h5 h6 =>
    have hm : matchPieces tsPat ("ts:".toList ++ b) = some [("sub_id", String.ofList sub), ("rg_id", String.ofList rg),
        ("name", String.ofList name), ("version", String.ofList version)] := by
      refine (matchPieces_iff _ sep_ts _ _).mpr (fits4.mpr ⟨sub, rg, name, version, rest, class5 ▸ h1,
        ends_of slash (by decide +kernel), class4 ▸ h2, ends_of slash (by decide +kernel), class3 ▸ h3,
        ends_of colon (by decide +kernel), class3 ▸ h4, class3 ▸ h5, ?_, rfl⟩)
      rw [h6]; simp only [List.append_assoc]
    unfold classifyModulePath
    rw [not_begins (by simp), not_begins (by simp), begins, slice3 (by decide), String.toList_ofList, hm]
    simp [refVal, group, List.lookup, comp]
  | @specAlias b al path tag rest h1 h2 h3 h4 h5 =>
    have hm : matchPieces tsAliasPat ("ts/".toList ++ b) = some [("alias", String.ofList al),
        ("path", String.ofList path), ("tag", String.ofList tag)] := by
      refine (matchPieces_iff _ sep_tsAlias _ _).mpr (fits3.mpr ⟨al, path, tag, rest, h1,
        ends_of colon (by decide +kernel), class2 ▸ h2,
        ends_of colon (by decide +kernel), class3 ▸ h3, class3 ▸ h4, ?_, rfl⟩)
      rw [h5]; simp only [List.append_assoc]
    unfold classifyModulePath
    rw [not_begins (by simp), not_begins (by simp), not_begins (by simp), begins, slice3 (by decide),
      String.toList_ofList, hm]
    simp [refVal, group, List.lookup, comp]

/-- **The classification of module references.** -/
theorem classify_iff {b : List Char} {v : Val} :
    classifyModulePath (String.ofList b) = .ok v ↔ ∃ ty de, ModuleRef b ty de ∧ v = refVal ty de :=
  ⟨classify_sound, fun ⟨_, _, h, hv⟩ => hv ▸ classify_complete h⟩

/-- a reference determines what is reported for it -/
theorem moduleRef_unique {b : List Char} {ty ty' de de'} (h : ModuleRef b ty de) (h' : ModuleRef b ty' de') :
    ty = ty' ∧ de = de' := by
  have := (classify_complete h).symm.trans (classify_complete h')
  simp only [refVal, Except.ok.injEq, Val.dict.injEq, List.cons.injEq, Prod.mk.injEq, true_and, and_true,
    Val.str.injEq] at this
  exact this

end Pycep
