import Verif.Spec.Possible
import Verif.Proofs.Place
import Verif.Proofs.Faithful
/-
The values of which expressions have the published type.
-/
namespace Pycep

theorem possible_dict {d : List (String × Val)} : (Val.dict d).Possible ↔ ∀ p ∈ d, p.2.Possible := by
  constructor
  · intro h
    cases h with
    | atom h => cases h
    | dict h => exact h
  · exact .dict

theorem possible_list {l : List Val} : (Val.list l).Possible ↔ ∀ v ∈ l, v.Atom := by
  constructor
  · intro h
    cases h with
    | atom h => cases h
    | list h => exact h
  · exact .list

theorem not_possible_none : ¬ Val.none.Possible := by
  intro h
  cases h with
  | atom h => cases h

theorem possible_str (s : String) : (Val.str s).Possible := .atom .str

/-- every pair that is not overwritten by a later one has the property -/
def LastOnes (P : Val → Prop) : List (String × Val) → Prop
  | [] => True
  | p :: ps => ((∃ q ∈ ps, q.1 = p.1) ∨ P p.2) ∧ LastOnes P ps

theorem lookup_rev_cons (k : String) (p : String × Val) (ps : List (String × Val)) :
    (p :: ps).reverse.lookup k = (ps.reverse.lookup k).or (if k = p.1 then some p.2 else .none) := by
  rw [List.reverse_cons, List.lookup_append]
  congr 1
  by_cases h : k = p.1
  · simp [List.lookup, h]
  · simp [List.lookup, h, beq_eq_false_iff_ne.mpr h]

theorem lookup_rev_isSome {k : String} {ps : List (String × Val)} :
    (ps.reverse.lookup k).isSome = true ↔ ∃ q ∈ ps, q.1 = k := by
  induction ps with
  | nil => simp
  | cons p ps ih =>
    rw [lookup_rev_cons, Option.isSome_or, Bool.or_eq_true, ih]
    by_cases h : k = p.1 <;> simp [h]
    rintro rfl
    exact absurd rfl h

theorem lastOnes_iff (P : Val → Prop) (ps : List (String × Val)) :
    LastOnes P ps ↔ ∀ k v, ps.reverse.lookup k = some v → P v := by
  induction ps with
  | nil => simp [LastOnes]
  | cons p ps ih =>
    rw [LastOnes, ih, ← lookup_rev_isSome]
    constructor
    · rintro ⟨h1, h2⟩ k v h
      rw [lookup_rev_cons] at h
      cases hk : ps.reverse.lookup k with
      | some w => rw [hk] at h; cases h; exact h2 k _ hk
      | none =>
        rw [hk, Option.none_or] at h
        split at h
        · rename_i e
          cases h
          rcases h1 with h1 | h1
          · rw [← e, hk] at h1; cases h1
          · exact h1
        · cases h
    · intro h
      refine ⟨?_, fun k v hk => h k v (by rw [lookup_rev_cons, hk]; rfl)⟩
      cases hk : ps.reverse.lookup p.1 with
      | some w => left; rfl
      | none => right; exact h p.1 p.2 (by rw [lookup_rev_cons, hk]; simp)

theorem possible_lastWins (ps : List (String × Val)) :
    (Val.dict (lastWins ps)).Possible ↔ LastOnes Val.Possible ps := by
  rw [possible_dict, lastOnes_iff]
  unfold lastWins
  constructor
  · intro h k v hk
    have hm : k ∈ ps.map Prod.fst := by
      obtain ⟨q, hq, rfl⟩ := lookup_rev_isSome.mp (by rw [hk]; rfl : (ps.reverse.lookup k).isSome = true)
      exact List.mem_map_of_mem hq
    have := h _ (List.mem_map_of_mem (List.mem_eraseDups.mpr hm))
    rw [hk] at this
    exact this
  · intro h p hp
    obtain ⟨k, hk, rfl⟩ := List.mem_map.mp hp
    rw [List.mem_eraseDups] at hk
    obtain ⟨q, hq, rfl⟩ := List.mem_map.mp hk
    obtain ⟨v, hv⟩ := Option.isSome_iff_exists.mp (lookup_rev_isSome.mpr ⟨q, hq, rfl⟩)
    simp only [hv, Option.getD_some]
    exact h _ _ hv

theorem numbered_forall {pre : String} {n : Nat} {vs : List Val} {P : Val → Prop} :
    (∀ p ∈ numbered pre n vs, P p.2) ↔ ∀ v ∈ vs, P v := by
  induction vs generalizing n with
  | nil => simp [numbered]
  | cons v vs ih => rw [numbered, List.forall_mem_cons, List.forall_mem_cons, ih]

theorem numbered_filter_forall {pre : String} {n : Nat} {vs : List Val} {P : Val → Prop} :
    (∀ p ∈ (numbered pre n vs).filter (fun p => p.2.truthy), P p.2) ↔ ∀ v ∈ vs, v.truthy = true → P v := by
  rw [← numbered_forall (pre := pre) (n := n) (P := fun v => v.truthy = true → P v)]
  simp only [List.mem_filter]
  exact ⟨fun h p hp ht => h p ⟨hp, ht⟩, fun h p hp => h p hp.1 hp.2⟩

theorem blank_not_truthy {ln : Bool} {e : Expr} {v : Val} (h : e.val ln = .ok v) (hb : e.blank = true) :
    v.truthy = false := by
  cases e with
  | null | fls => rw [Expr.val] at h; cases h; rfl
  | str b =>
    rw [Expr.val] at h; cases h
    rw [Expr.blank, List.isEmpty_iff] at hb
    subst hb; rfl
  | multi b =>
    rw [Expr.val] at h; cases h
    rw [Expr.blank, List.isEmpty_iff] at hb
    rw [hb]; rfl
  | int d =>
    rw [Expr.val] at h; split at h <;> cases h
    rw [Expr.blank, beq_iff_eq] at hb
    rw [hb]; rfl
  | array es =>
    rw [Expr.blank, List.isEmpty_iff] at hb
    subst hb
    rw [Expr.val, Expr.vals] at h; cases h; rfl
  | object es =>
    rw [Expr.blank, List.isEmpty_iff] at hb
    subst hb
    rw [Expr.val, Item.vals] at h; cases h; rfl
  | _ => cases hb

theorem truthy_iff {ln : Bool} {e : Expr} {v : Val} (h : e.val ln = .ok v) : v.truthy = true ↔ ¬ e.blank = true := by
  constructor
  · intro ht hb; rw [blank_not_truthy h hb] at ht; cases ht
  · intro hb; exact blank_truthy h (by simpa using hb)

/-- the elements of an array -/
theorem atom_iff {ln : Bool} {e : Expr} {v : Val} (h : e.val ln = .ok v) : v.Atom ↔ e.Single := by
  cases e <;> rw [Expr.val] at h
  case null => cases h; exact ⟨fun h => (by cases h), fun h => h.elim⟩
  case tru | fls => cases h; exact ⟨fun _ => trivial, fun _ => .bool⟩
  case int => split at h <;> cases h; exact ⟨fun _ => trivial, fun _ => .int⟩
  case ident => cases h; exact ⟨fun _ => trivial, fun _ => .elem⟩
  case str | multi => cases h; exact ⟨fun _ => trivial, fun _ => .str⟩
  all_goals
    refine ⟨fun h' => ?_, fun h => h.elim⟩
    exfalso
    obtain ⟨_, _, h⟩ := bind_ok' h
    try (obtain ⟨_, _, h⟩ := bind_ok' h)
    try (obtain ⟨_, _, h⟩ := bind_ok' h)
    try (obtain ⟨_, _, h⟩ := bind_ok' h)
    try (obtain ⟨_, _, h⟩ := bind_ok' h)
    cases h
    cases h'

theorem atoms_iff {ln : Bool} {es : List Expr} {vs : List Val} (h : Expr.vals ln es = .ok vs) :
    (∀ v ∈ vs, v.Atom) ↔ ∀ e ∈ es, e.Single := by
  induction es generalizing vs with
  | nil => rw [Expr.vals] at h; cases h; simp
  | cons e es ih =>
    rw [Expr.vals] at h
    obtain ⟨v, hv, h⟩ := bind_ok' h; obtain ⟨ws, hws, h⟩ := bind_ok' h
    cases h
    simp [atom_iff hv, ih hws]

/-- calls -/
theorem callFits_iff {f : String} {args : List Val} {ok : List Prop} {data : Val}
    (h : List.Forall₂ (fun v P => v.Possible ↔ P) args ok) (hd : Functions.getFunction f f args = .ok data) :
    data.Possible ↔ CallFits f args ok := by
  have hget : ∀ i : Nat, (args[i]?.getD Val.none).Possible ↔ ok[i]?.getD False := by
    clear hd
    induction h with
    | nil => intro i; simp [not_possible_none]
    | cons h _ ih =>
      intro i
      cases i with
      | zero => simpa using h
      | succ i => simpa using ih i
  have hall : (∀ v ∈ args, v.Possible) ↔ ∀ q ∈ ok, q := by
    clear hd hget
    induction h with
    | nil => simp
    | cons h _ ih => rw [List.forall_mem_cons, List.forall_mem_cons, h, ih]
  unfold CallFits
  by_cases hk : ∃ s ∈ signatures, f ∈ s.names
  · obtain ⟨s, hs, hf⟩ := hk
    have ha := getFunction_known hs hf f args
    have huniq : ∀ s' ∈ signatures, f ∈ s'.names → s' = s := fun s' hs' hf' => signature_unique hs' hf' hs hf
    have hsnd : ((∀ s ∈ signatures, f ∉ s.names) → ∀ q ∈ ok, q) := fun h => absurd hf (h s hs)
    unfold Agrees at ha
    cases hr : s.report args with
    | refused => rw [hr] at ha; obtain ⟨e, he⟩ := ha; rw [hd] at he; cases he
    | bare =>
      rw [hr] at ha
      simp only at ha
      rw [hd] at ha; cases ha
      refine ⟨fun _ => ⟨fun s' hs' hf' ps hps => ?_, hsnd⟩, fun _ => ?_⟩
      · rw [huniq s' hs' hf', hr] at hps; cases hps
      · rw [possible_dict]; simp [possible_str]
    | params ps =>
      rw [hr] at ha
      simp only at ha
      rw [hd] at ha; cases ha
      rw [possible_dict]
      simp only [List.mem_cons, List.not_mem_nil, or_false, forall_eq_or_imp, forall_eq, possible_str, true_and]
      rw [possible_dict]
      constructor
      · intro h
        refine ⟨fun s' hs' hf' ps' hps q hq => ?_, hsnd⟩
        rw [huniq s' hs' hf', hr] at hps; cases hps
        have := h _ (List.mem_map_of_mem hq)
        obtain ⟨k, src⟩ := q
        cases src with
        | arg i => exact (hget i).mp this
        | absent => exact not_possible_none this
        | text s => trivial
      · rintro ⟨h, _⟩ p hp
        obtain ⟨⟨k, src⟩, hq, rfl⟩ := List.mem_map.mp hp
        have := h s hs hf ps hr _ hq
        cases src with
        | arg i => exact (hget i).mpr this
        | absent => exact this.elim
        | text s => exact possible_str s
  · push Not at hk
    rw [getFunction_unknown hk] at hd
    cases hd
    rw [possible_dict]
    simp only [List.mem_cons, List.not_mem_nil, or_false, forall_eq_or_imp, forall_eq, possible_str, true_and]
    rw [possible_dict, numbered_forall, hall]
    exact ⟨fun h => ⟨fun s hs hf => absurd hf (hk s hs), fun _ => h⟩, fun h => h.2 hk⟩

theorem loopCondition_call {f : FunName} {args : List Val} {data y : Val}
    (hd : Functions.getFunction (txt f.1) (txt f.1) args = .ok data)
    (h : loopCondition (.dict [("function", data)]) = .ok y) :
    (txt f.1 = "if" ∧ args[0]? = some y) ∨ (txt f.1 ≠ "if" ∧ y = .dict [("function", data)]) := by
  by_cases hf : txt f.1 = "if"
  · rw [hf, getFunction_unknown (fun s hs => (signature_type_ne_if s hs).2)] at hd
    cases hd
    left
    refine ⟨hf, ?_⟩
    cases args with
    | nil =>
      simp [loopCondition, Val.getOrEmpty, Val.get, dGet, bind, Except.bind, Val.eqStr, Val.item, numbered] at h
    | cons v vs => rw [loopCondition_if] at h; cases h; rfl
  · right
    refine ⟨hf, ?_⟩
    obtain ⟨d, t, rfl, ht, hne⟩ : ∃ d t, data = .dict d ∧ dGet "type" d = some (.str t) ∧ t ≠ "if" := by
      by_cases hk : ∃ s ∈ signatures, txt f.1 ∈ s.names
      · obtain ⟨s, hs, hn⟩ := hk
        have ha := getFunction_known hs hn (txt f.1) args
        unfold Agrees at ha
        cases hr : s.report args with
        | refused => rw [hr] at ha; obtain ⟨e, he⟩ := ha; rw [hd] at he; cases he
        | bare => rw [hr] at ha; simp only at ha; rw [hd] at ha; cases ha; exact ⟨_, _, rfl, rfl, (signature_type_ne_if s hs).1⟩
        | params ps => rw [hr] at ha; simp only at ha; rw [hd] at ha; cases ha; exact ⟨_, _, rfl, rfl, (signature_type_ne_if s hs).1⟩
      · push Not at hk
        rw [getFunction_unknown hk] at hd
        cases hd
        exact ⟨_, _, rfl, rfl, hf⟩
    rw [loopCondition_function ht hne] at h
    cases h; rfl

theorem loopCondition_object {d : List (String × Val)} {y : Val} (h : loopCondition (.dict d) = .ok y) :
    (LooksLikeIf (.dict d) ∧ (Val.dict d).at? [.key "function", .key "parameters", .key "arg_1"] = some y) ∨
      (¬ LooksLikeIf (.dict d) ∧ y = .dict d) := by
  unfold LooksLikeIf
  cases hg : dGet "function" d with
  | none =>
    right
    rw [loopCondition_noFunction hg] at h
    cases h
    exact ⟨by simp [Val.at?, Val.step?, hg], rfl⟩
  | some g =>
    simp only [loopCondition, Val.getOrEmpty, hg, Option.getD_some, bind, Except.bind] at h
    cases g with
    | dict d' =>
      simp only [Val.get, Val.item] at h
      cases hty : dGet "type" d' with
      | none =>
        rw [hty] at h
        right
        simp only [Option.getD_none, Val.eqStr, Bool.false_eq_true, if_false] at h
        cases h
        exact ⟨by simp [Val.at?, Val.step?, hg, hty], rfl⟩
      | some u =>
        rw [hty, Option.getD_some] at h
        by_cases he : u.eqStr "if" = true
        · left
          rw [if_pos he] at h
          refine ⟨⟨u, by simp [Val.at?, Val.step?, hg, hty], he⟩, ?_⟩
          cases hpar : dGet "parameters" d' with
          | none => rw [hpar] at h; cases h
          | some ps =>
            rw [hpar] at h
            cases ps with
            | dict d2 =>
              simp only at h
              cases ha : dGet "arg_1" d2 with
              | none => rw [ha] at h; cases h
              | some z => rw [ha] at h; cases h; simp [Val.at?, Val.step?, hg, hpar, ha]
            | _ => cases h
        · right
          rw [if_neg he] at h
          cases h
          refine ⟨?_, rfl⟩
          rintro ⟨w, hw, hw'⟩
          simp [Val.at?, Val.step?, hg, hty] at hw
          subst hw
          exact he hw'
    | _ => cases h

theorem possible_op (t : String) (d : List (String × Val)) : (opVal t d).Possible ↔ ∀ p ∈ d, p.2.Possible := by
  unfold opVal
  simp only [possible_dict, List.mem_cons, List.not_mem_nil, or_false, forall_eq_or_imp, forall_eq, possible_str, true_and]

mutual
theorem Expr.fits_iff {ln : Bool} : ∀ (e : Expr) {v : Val}, e.val ln = .ok v → (v.Possible ↔ e.Fits ln)
  | .null, v, h => by rw [Expr.val] at h; cases h; rw [Expr.Fits]; exact iff_of_false not_possible_none id
  | .tru, v, h | .fls, v, h => by rw [Expr.val] at h; cases h; rw [Expr.Fits]; exact iff_of_true (.atom .bool) trivial
  | .int d, v, h => by
    rw [Expr.val] at h; split at h <;> cases h; rw [Expr.Fits]; exact iff_of_true (.atom .int) trivial
  | .ident d, v, h => by rw [Expr.val] at h; cases h; rw [Expr.Fits]; exact iff_of_true (.atom .elem) trivial
  | .str d, v, h | .multi d, v, h => by
    rw [Expr.val] at h; cases h; rw [Expr.Fits]; exact iff_of_true (.atom .str) trivial
  | .array es, v, h => by
    rw [Expr.val] at h
    obtain ⟨vs, hvs, h⟩ := bind_ok' h
    cases h
    rw [Expr.Fits, possible_list, atoms_iff hvs]
  | .object is, v, h => by
    rw [Expr.val] at h
    obtain ⟨ps, hps, h⟩ := bind_ok' h
    cases h
    rw [Expr.Fits, possible_lastWins]
    exact Item.fit_iff is hps
  | .call f es, v, h => by
    rw [Expr.val] at h
    obtain ⟨vs, hvs, h⟩ := bind_ok' h
    obtain ⟨data, hd, h⟩ := bind_ok' h
    cases h
    rw [Expr.Fits, possible_dict]
    simp only [List.mem_singleton, forall_eq]
    rw [callFits_iff (Expr.fit_iff es hvs) (inRule_ok hd)]
    exact ⟨fun h args ha => by rw [hvs] at ha; cases ha; exact h, fun h => h _ hvs⟩
  | .bin op a b, v, h => by
    rw [Expr.val] at h
    obtain ⟨x, hx, h⟩ := bind_ok' h; obtain ⟨y, hy, h⟩ := bind_ok' h
    cases h
    rw [Expr.Fits, possible_op, ← Expr.fits_iff a hx, ← Expr.fits_iff b hy]
    simp
  | .not a, v, h | .minus a, v, h => by
    rw [Expr.val] at h
    obtain ⟨x, hx, h⟩ := bind_ok' h
    cases h
    rw [Expr.Fits, possible_op, ← Expr.fits_iff a hx]
    simp
  | .cond c t f, v, h => by
    rw [Expr.val] at h
    obtain ⟨x, hx, h⟩ := bind_ok' h; obtain ⟨y, hy, h⟩ := bind_ok' h; obtain ⟨z, hz, h⟩ := bind_ok' h
    cases h
    rw [Expr.Fits, possible_op, ← Expr.fits_iff c hx, ← Expr.fits_iff t hy, ← Expr.fits_iff f hz]
    simp
  | .method a f args, v, h => by
    rw [Expr.val] at h
    obtain ⟨x, hx, h⟩ := bind_ok' h; obtain ⟨y, hy, h⟩ := bind_ok' h
    cases h
    rw [Expr.Fits, possible_op, ← Expr.fits_iff a hx, ← Expr.optFit_iff args hy, ← numbered_filter_forall (pre := "operand_") (n := 2)]
    simp only [List.forall_mem_cons, possible_str, true_and]
  | .lambda x e, v, h => by
    rw [Expr.val] at h
    obtain ⟨x, hx, h⟩ := bind_ok' h; obtain ⟨y, hy, h⟩ := bind_ok' h
    cases h
    rw [Expr.Fits, ← Expr.fits_iff e hy]
    simp [possible_dict, possible_str]
  | .lambdaN v1 v2 v3 vs e, v, h => by
    rw [Expr.val] at h
    obtain ⟨x1, h1, h⟩ := bind_ok' h; obtain ⟨x2, h2, h⟩ := bind_ok' h
    obtain ⟨x3, h3, h⟩ := bind_ok' h; obtain ⟨xs, h4, h⟩ := bind_ok' h
    obtain ⟨y, hy, h⟩ := bind_ok' h
    cases h
    rw [Expr.Fits, ← Expr.fits_iff e hy]
    simp only [possible_dict, List.forall_mem_cons, possible_str, true_and, List.not_mem_nil, false_implies,
      implies_true, and_true, List.forall_mem_append]
    refine and_iff_right ?_
    rw [numbered_forall]
    intro v hv
    obtain ⟨w, _, rfl⟩ := List.mem_map.mp hv
    exact possible_str _
theorem Expr.fit_iff {ln : Bool} : ∀ (es : List Expr) {vs : List Val}, Expr.vals ln es = .ok vs →
    List.Forall₂ (fun v P => v.Possible ↔ P) vs (Expr.fit ln es)
  | [], vs, h => by rw [Expr.vals] at h; cases h; rw [Expr.fit]; exact .nil
  | e :: es, vs, h => by
    rw [Expr.vals] at h
    obtain ⟨v, hv, h⟩ := bind_ok' h; obtain ⟨ws, hws, h⟩ := bind_ok' h
    cases h
    rw [Expr.fit]
    exact .cons (Expr.fits_iff e hv) (Expr.fit_iff es hws)
theorem Expr.optFit_iff {ln : Bool} : ∀ (es : List (Option Expr)) {vs : List Val}, Expr.optVals ln es = .ok vs →
    ((∀ v ∈ vs, v.truthy = true → v.Possible) ↔ Expr.optFit ln es)
  | [], vs, h => by rw [Expr.optVals] at h; cases h; simp [Expr.optFit]
  | .none :: es, vs, h => by
    rw [Expr.optVals, Expr.optVal] at h
    obtain ⟨v, hv, h⟩ := bind_ok' h; obtain ⟨ws, hws, h⟩ := bind_ok' h
    cases h; cases hv
    rw [Expr.optFit, ← Expr.optFit_iff es hws]
    simp [Val.truthy]
  | some e :: es, vs, h => by
    rw [Expr.optVals, Expr.optVal] at h
    obtain ⟨v, hv, h⟩ := bind_ok' h; obtain ⟨ws, hws, h⟩ := bind_ok' h
    cases h
    rw [Expr.optFit, ← Expr.optFit_iff es hws, ← Expr.fits_iff e hv, List.forall_mem_cons, truthy_iff hv]
    tauto
theorem Item.fits_iff {ln : Bool} : ∀ (i : Item) {p : String × Val}, i.val ln = .ok p →
    p.1 = i.key ∧ (p.2.Possible ↔ i.Fits ln)
  | .pair k e, p, h => by
    rw [Item.val] at h
    obtain ⟨v, hv, h⟩ := bind_ok' h
    cases h
    rw [Item.Fits]
    exact ⟨rfl, Expr.fits_iff e hv⟩
  | .pairLoop k l, p, h => by
    rw [Item.val] at h
    obtain ⟨v, hv, h⟩ := bind_ok' h
    cases h
    rw [Item.Fits]
    exact ⟨rfl, Loop.fits_iff l hv⟩
  | .child l x t ex c, p, h => by
    rw [Item.val] at h
    obtain ⟨v, hv, h⟩ := bind_ok' h
    cases h
    rw [Item.Fits, ← Config.fits_iff c hv]
    refine ⟨rfl, ?_⟩
    simp only [possible_dict, List.forall_mem_cons, possible_str, true_and, List.not_mem_nil, false_implies,
      implies_true, and_true, List.cons_append, List.nil_append]
    have h1 : (Val.list []).Possible := .list (by simp)
    have h2 : (Val.bool ex).Possible := .atom .bool
    have h3 : ∀ p ∈ lineItems ln (l.1, l.2 - 1), p.2.Possible := by
      unfold lineItems
      split <;> simp
      exact ⟨.atom .int, .atom .int⟩
    tauto
theorem Item.fit_iff {ln : Bool} : ∀ (is : List Item) {ps : List (String × Val)}, Item.vals ln is = .ok ps →
    (LastOnes Val.Possible ps ↔ Item.Fit ln is)
  | [], ps, h => by rw [Item.vals] at h; cases h; simp [LastOnes, Item.Fit]
  | i :: is, ps, h => by
    rw [Item.vals] at h
    obtain ⟨p, hp, h⟩ := bind_ok' h; obtain ⟨qs, hqs, h⟩ := bind_ok' h
    cases h
    rw [LastOnes, Item.Fit, Item.fit_iff is hqs, (Item.fits_iff i hp).2, (Item.fits_iff i hp).1]
    have : (∃ q ∈ qs, q.1 = i.key) ↔ ∃ j ∈ is, j.key = i.key := by
      have hk := (items_mem hqs).1
      constructor
      · rintro ⟨q, hq, e⟩
        have : q.1 ∈ qs.map Prod.fst := List.mem_map_of_mem hq
        rw [hk] at this
        obtain ⟨j, hj, e'⟩ := List.mem_map.mp this
        exact ⟨j, hj, e'.trans e⟩
      · rintro ⟨j, hj, e⟩
        have : j.key ∈ is.map Item.key := List.mem_map_of_mem hj
        rw [← hk] at this
        obtain ⟨q, hq, e'⟩ := List.mem_map.mp this
        exact ⟨q, hq, e'.trans e⟩
    rw [this]
theorem Loop.fits_iff {ln : Bool} : ∀ (l : Loop) {v : Val}, l.val ln = .ok v → (v.Possible ↔ l.Fits ln)
  | .mk h .none b, v, hv => by
    rw [Loop.val, Expr.optVal] at hv
    obtain ⟨x, hx, hv⟩ := bind_ok' hv; obtain ⟨c, hc, hv⟩ := bind_ok' hv; obtain ⟨y, hy, hv⟩ := bind_ok' hv
    obtain ⟨c', hc', hv⟩ := bind_ok' hv
    cases hv; cases hc; cases hc'
    rw [Loop.Fits]
    simp [possible_dict, not_possible_none]
  | .mk h (some c) b, v, hv => by
    rw [Loop.val, Expr.optVal] at hv
    obtain ⟨x, hx, hv⟩ := bind_ok' hv; obtain ⟨w, hw, hv⟩ := bind_ok' hv; obtain ⟨y, hy, hv⟩ := bind_ok' hv
    obtain ⟨z, hz, hv⟩ := bind_ok' hv
    cases hv
    have hz := inRule_ok hz
    rw [Loop.Fits, ← LoopHead.fits_iff h hx, ← Expr.fits_iff b hy]
    have hcond : z.Possible ↔ CondFits ln c (c.Fits ln) (c.argFit ln) := by
      have hF := Expr.fits_iff c hw
      cases c with
      | call f es =>
        have hA := @Expr.argFit_iff ln (.call f es) f es rfl
        rw [Expr.val] at hw
        obtain ⟨vs, hvs, hw⟩ := bind_ok' hw
        obtain ⟨data, hd, hw⟩ := bind_ok' hw
        cases hw
        unfold CondFits
        simp only
        rcases loopCondition_call (inRule_ok hd) hz with ⟨hf, ha⟩ | ⟨hf, rfl⟩
        · rw [if_pos hf]
          have hA := hA hvs
          generalize Expr.argFit ln (.call f es) = A at hA
          cases hA with
          | nil => cases ha
          | cons h1 _ => rw [List.getElem?_cons_zero] at ha; cases ha; simpa using h1
        · rw [if_neg hf]; exact hF
      | object is =>
        unfold CondFits
        simp only
        have hw' := hw
        rw [Expr.val] at hw'
        obtain ⟨ps, hps, hw'⟩ := bind_ok' hw'
        cases hw'
        rcases loopCondition_object hz with ⟨h1, h2⟩ | ⟨h1, rfl⟩
        · constructor
          · intro hp w' hw2
            rw [hw] at hw2; cases hw2
            exact ⟨fun _ y hy => by rw [h2] at hy; cases hy; exact hp, fun h => absurd h1 h⟩
          · intro h
            exact (h _ hw).1 h1 _ h2
        · constructor
          · intro hp w' hw2
            rw [hw] at hw2; cases hw2
            exact ⟨fun h => absurd h h1, fun _ => hF.mp hp⟩
          · intro h
            exact hF.mpr ((h _ hw).2 h1)
      | _ =>
        rw [loopCondition_asItIs (by trivial) hw] at hz
        cases hz
        exact hF
    rw [← hcond]
    simp only [possible_dict, List.forall_mem_cons, List.not_mem_nil, false_implies, implies_true, and_true]
    tauto
theorem Expr.argFit_iff {ln : Bool} : ∀ (e : Expr) (f : FunName) (es : List Expr), e = .call f es → ∀ {vs : List Val}, Expr.vals ln es = .ok vs →
    List.Forall₂ (fun v P => v.Possible ↔ P) vs (e.argFit ln)
  | .call f es, _, _, rfl, vs, h => by rw [Expr.argFit]; exact Expr.fit_iff es h
theorem LoopHead.fits_iff {ln : Bool} : ∀ (l : LoopHead) {v : Val}, l.val ln = .ok v → (v.Possible ↔ l.Fits ln)
  | .arr x e, v, h | .arrIdx x _ e, v, h => by
    rw [LoopHead.val] at h
    obtain ⟨y, hy, h⟩ := bind_ok' h
    cases h
    rw [LoopHead.Fits, ← Expr.fits_iff e hy]
    simp [possible_dict, possible_str]
  | .obj x e, v, h => by
    rw [LoopHead.val] at h
    obtain ⟨y, hy, h⟩ := bind_ok' h
    cases h
    rw [LoopHead.Fits]
    simp [possible_dict, possible_str]
theorem Config.fits_iff {ln : Bool} : ∀ (c : Config) {v : Val}, c.val ln = .ok v → (v.Possible ↔ c.Fits ln)
  | .obj is, v, h => by
    rw [Config.val] at h
    obtain ⟨ps, hps, h⟩ := bind_ok' h
    cases h
    rw [Config.Fits, possible_lastWins]
    exact Item.fit_iff is hps
  | .loop l, v, h => by
    rw [Config.val] at h
    rw [Config.Fits]
    exact Loop.fits_iff l h
  | .cond c e, v, h => by
    rw [Config.val] at h
    obtain ⟨x, hx, h⟩ := bind_ok' h; obtain ⟨y, hy, h⟩ := bind_ok' h
    cases h
    rw [Config.Fits, ← Expr.fits_iff c hx, ← Expr.fits_iff e hy]
    simp [possible_dict]
end

end Pycep
