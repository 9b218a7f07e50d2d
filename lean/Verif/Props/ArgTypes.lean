import Verif.Proofs.ArgTypes
import Verif.Props.Published
/-
C79: where the types published for single arguments are right.
-/
namespace Pycep

theorem dGet_mem' {k : String} {d : List (String × Val)} {v : Val} (h : dGet k d = some v) : (k, v) ∈ d := by
  induction d with
  | nil => cases h
  | cons p d ih =>
    obtain ⟨k', x⟩ := p
    rw [dGet] at h
    split at h
    · rename_i e; cases h
      subst e; exact List.mem_cons_self
    · exact List.mem_cons_of_mem _ (ih h)

theorem dGet_of_mem {d : List (String × Val)} (hd : (d.map Prod.fst).Nodup) {k : String} {v : Val}
    (h : (k, v) ∈ d) : dGet k d = some v := by
  induction d with
  | nil => cases h
  | cons p d ih =>
    obtain ⟨k', x⟩ := p
    rw [List.map_cons, List.nodup_cons] at hd
    rw [dGet]
    rcases List.mem_cons.mp h with e | h
    · cases e; simp
    · split
      · rename_i e
        subst e
        exact absurd (List.mem_map_of_mem (f := Prod.fst) h) hd.1
      · exact ih hd.2 h

theorem has_int {v : Val} : ArgTy.int.Has v ↔ (∃ i, v = .int i) ∨ ∃ b, v = .bool b := by
  constructor
  · intro h; cases h
    · exact .inl ⟨_, rfl⟩
    · exact .inr ⟨_, rfl⟩
  · rintro (⟨i, rfl⟩ | ⟨b, rfl⟩)
    · exact .int
    · exact .isBool

/-- operators other than `-` are left alone -/
theorem minValArg_op {l : String} (hl : l ≠ "minus") (d : List (String × Val)) :
    Decorators.minValArg (opVal l d) = .ok (opVal l d) := by
  simp [Decorators.minValArg, opVal, Val.getOrEmpty, Val.get, dGet, bind, Except.bind, Val.eqStr, hl, pure, Except.pure]

/-- what `@minValue` makes of its argument -/
theorem minValArg_int {ln : Bool} {e : Expr} {a x : Val} (h : e.val ln = .ok a) (ho : ∀ is, e ≠ .object is)
    (hx : Decorators.minValArg a = .ok x) : ArgTy.int.Has x ↔ e.Negatable := by
  have keep : ∀ u, a = u → Decorators.minValArg u = .ok u → (∀ b, e ≠ .minus b) → (ArgTy.int.Has x ↔ e.Negatable) := by
    rintro u rfl hu hm
    rw [hu] at hx; cases hx
    rw [has_int, (val_kind h).2.1, (val_kind h).2.2.1]
    cases e with
    | minus b => exact absurd rfl (hm b)
    | _ => rw [Expr.Negatable]; exact hm
  have hrest : ∀ {k : String} {u : Val}, k ≠ "operator" → Decorators.minValArg (.dict [(k, u)]) = .ok (.dict [(k, u)]) := by
    intro k u hk
    simp [Decorators.minValArg, Val.getOrEmpty, Val.get, dGet, bind, Except.bind, Val.eqStr, hk, pure, Except.pure]
  cases e with
  | object is => exact absurd rfl (ho is)
  | null | tru | fls | ident _ | str _ | multi _ =>
    have h' := h
    rw [Expr.val] at h'; cases h'; exact keep _ rfl rfl nofun
  | int d =>
    have h' := h
    rw [Expr.val] at h'
    split at h'
    · cases h'; exact keep _ rfl rfl nofun
    · cases h'
  | array es =>
    have h' := h
    rw [Expr.val] at h'; obtain ⟨_, _, h'⟩ := bind_ok' h'; cases h'; exact keep _ rfl rfl nofun
  | call f es =>
    have h' := h
    rw [Expr.val] at h'; obtain ⟨_, _, h'⟩ := bind_ok' h'; obtain ⟨_, _, h'⟩ := bind_ok' h'; cases h'
    exact keep _ rfl (hrest (by decide)) nofun
  | bin op a b =>
    have h' := h
    rw [Expr.val] at h'; obtain ⟨_, _, h'⟩ := bind_ok' h'; obtain ⟨_, _, h'⟩ := bind_ok' h'; cases h'
    exact keep _ rfl (minValArg_op (by cases op <;> decide) _) nofun
  | not a =>
    have h' := h
    rw [Expr.val] at h'; obtain ⟨_, _, h'⟩ := bind_ok' h'; cases h'
    exact keep _ rfl (minValArg_op (by decide) _) nofun
  | cond a b c =>
    have h' := h
    rw [Expr.val] at h'; obtain ⟨_, _, h'⟩ := bind_ok' h'; obtain ⟨_, _, h'⟩ := bind_ok' h'
    obtain ⟨_, _, h'⟩ := bind_ok' h'; cases h'
    exact keep _ rfl (minValArg_op (by decide) _) nofun
  | method a f args =>
    have h' := h
    rw [Expr.val] at h'; obtain ⟨_, _, h'⟩ := bind_ok' h'; obtain ⟨_, _, h'⟩ := bind_ok' h'; cases h'
    exact keep _ rfl (minValArg_op (by decide) _) nofun
  | lambda a b =>
    have h' := h
    rw [Expr.val] at h'; obtain ⟨_, _, h'⟩ := bind_ok' h'; obtain ⟨_, _, h'⟩ := bind_ok' h'; cases h'
    exact keep _ rfl rfl nofun
  | lambdaN a b c vs e =>
    have h' := h
    rw [Expr.val] at h'; obtain ⟨_, _, h'⟩ := bind_ok' h'; obtain ⟨_, _, h'⟩ := bind_ok' h'
    obtain ⟨_, _, h'⟩ := bind_ok' h'; obtain ⟨_, _, h'⟩ := bind_ok' h'; obtain ⟨_, _, h'⟩ := bind_ok' h'; cases h'
    exact keep _ rfl rfl nofun
  | minus b =>
    rw [Expr.val] at h
    obtain ⟨w, hw, h⟩ := bind_ok' h
    cases h
    rw [Expr.Negatable, ← (val_kind hw).2.1, ← (val_kind hw).2.2.1]
    have : Decorators.minValArg (opVal "minus" [("integer_value", w)]) = mulNegOne w := by
      simp [Decorators.minValArg, opVal, Val.getOrEmpty, Val.get, Val.item, dGet, bind, Except.bind, Val.eqStr]
    rw [this] at hx
    cases w <;> cases hx <;> simp [has_int]

theorem pyInt_int {a x : Val} (h : pyInt a = .ok x) : ∃ i, x = .int i := by
  cases a <;> simp only [pyInt] at h <;> first | (cases h; exact ⟨_, rfl⟩) | cases h | skip
  all_goals
    cases hi : intOfStr _ with
    | error e => rw [hi] at h; cases h
    | ok i => rw [hi] at h; cases h; exact ⟨i, rfl⟩

/-- the signature of a row -/
theorem sound_of {r : ArgRow} (hr : r ∈ publishedArgs) : ∃ s ∈ signatures, SoundRow s r :=
  forall₂_left (R := fun r s => SoundRow s r) sound_table.flip r hr

theorem signature_name {s s' : Signature} (hs : s ∈ signatures) (hs' : s' ∈ signatures) (h : s.name = s'.name) :
    s = s' :=
  signature_unique (f := s.name) hs (by simp [Signature.names]) hs' (by simp [Signature.names, h])

/-- **C79, functions.** What is reported about a call of a published function has the type published for
it, including the types of its parameters, if and only if the number of arguments does not deviate
(C64) and each argument that is reported fits the type of its key: a text or an identifier for `str`, an
expression without `null`, nested arrays and so on for `PossibleValue` (C76). -/
theorem C79_functions {P : Parser} {text path v} (h : P.parse text path = .ok v) :
    ∃ t p, chosenText text path = .ok t ∧ Spells t p ∧
      ∀ {s n π f es ty r}, p.At s n π (.expr (.call f es)) → ty ∈ publishedFunctions → r ∈ publishedArgs →
        ty.name = r.name → String.ofList f.1 ∈ ty.names →
        ∃ data, v.at? (.key s :: .key n :: π) = some (.dict [("function", data)]) ∧
          (r.Typed ty data ↔ ¬ Deviates ty.name es.length ∧ r.Fit P.addLineNumbers es) := by
  obtain ⟨t, p, h1, h2, h3⟩ := parse_at h
  refine ⟨t, p, h1, h2, fun {s n π f es ty r} ha ht hr hn hf => ?_⟩
  obtain ⟨y, hy, hat⟩ := h3 ha
  obtain ⟨vs, data, hvs, hd, rfl⟩ := call_at hy
  refine ⟨data, hat, ?_⟩
  have hlen := (vals_getElem hvs).1
  unfold ArgRow.Typed
  rw [has_iff ht hf hd, hlen]
  refine and_congr_right fun _ => ?_
  obtain ⟨sg, hsg, hsn, hsound⟩ := sound_of hr
  obtain ⟨sg', hsg', hp⟩ := signature_of ht
  obtain rfl : sg = sg' := signature_name hsg hsg' (by rw [hsn, ← hn, hp.2.1])
  have hfs : String.ofList f.1 ∈ sg.names := hp.names ▸ hf
  have hfit : r.Fit P.addLineNumbers es ↔ ∀ ps, sg.report vs = .params ps →
      ∀ k i, (k, Src.arg i) ∈ ps → ∀ e, es[i]? = some e → (r.ty k).Fits P.addLineNumbers e := by
    constructor
    · intro hF ps hps; exact hF vs hvs sg hsg hsn ps hps
    · intro hF args hargs s' hs' hn' ps hps
      rw [hvs] at hargs; cases hargs
      obtain rfl : s' = sg := signature_name hs' hsg (by rw [hn', hsn])
      exact hF ps hps
  rw [hfit]
  cases hd with
  | @known s' ps hs' hf' hrep =>
    obtain rfl := signature_unique hs' hf' hsg hfs
    have hnd : ((ps.map (fun p => (p.1, p.2.val vs))).map Prod.fst).Nodup := by
      have := report_distinct _ hs' vs ps hrep
      rw [List.map_map]; exact this
    have hatk : ∀ k x, (Val.dict [("type", .str s'.type),
        ("parameters", .dict (ps.map (fun p => (p.1, p.2.val vs))))]).at? [.key "parameters", .key k] = some x ↔
        (k, x) ∈ ps.map (fun p => (p.1, p.2.val vs)) := by
      intro k x
      have : (Val.dict [("type", .str s'.type),
        ("parameters", .dict (ps.map (fun p => (p.1, p.2.val vs))))]).at? [.key "parameters", .key k] =
          dGet k (ps.map (fun p => (p.1, p.2.val vs))) := by
        simp only [Val.at?, Val.step?]
        simp [dGet]
      rw [this]
      exact ⟨dGet_mem', dGet_of_mem hnd⟩
    constructor
    · intro hT ps' hps' k i hki e he
      rw [hrep] at hps'; cases hps'
      obtain ⟨w, hw, hwi⟩ := (vals_getElem hvs).2 i e he
      rw [← ArgTy.fits_iff _ hw]
      refine hT k w ((hatk k w).mpr ?_)
      have := List.mem_map_of_mem (f := fun p : String × Src => (p.1, p.2.val vs)) hki
      simpa [Src.val, hwi] using this
    · intro hF k x hx
      rw [hatk, List.mem_map] at hx
      obtain ⟨⟨k', src⟩, hq, e⟩ := hx
      cases e
      have hs := hsound vs ps hrep _ hq
      cases src with
      | arg i =>
        simp only at hs
        obtain ⟨e, he⟩ : ∃ e, es[i]? = some e := ⟨es[i]'(by omega), List.getElem?_eq_getElem _⟩
        obtain ⟨w, hw, hwi⟩ := (vals_getElem hvs).2 i e he
        have := (ArgTy.fits_iff _ hw).mpr (hF ps hrep k' i hq e he)
        simpa [Src.val, hwi] using this
      | absent => exact hs
      | text t => exact hs
  | @bare s' hs' hf' hrep =>
    obtain rfl := signature_unique hs' hf' hsg hfs
    refine ⟨fun _ ps hps => ?_, fun _ k x hx => ?_⟩
    · rw [hrep] at hps; cases hps
    · simp [Val.at?, Val.step?, dGet] at hx
  | unknown hu => exact absurd hfs (hu sg hsg)

/-- **C79, decorators.** The argument of a known decorator, where one is reported, has the published type
exactly if: for `allowed` it is an array of literals and identifiers; for `description` a text or an
identifier; for `metadata` anything but a literal, an identifier or an array; for `batchSize`, `minLength`
and `maxLength` an integer (or `true` or `false`), which is not negative; for `minValue`, unless it is an
object, an integer, which may be negative; for `maxValue` always. -/
theorem C79_decorators {P : Parser} {text path v} (h : P.parse text path = .ok v) :
    ∃ t p, chosenText text path = .ok t ∧ Spells t p ∧
      ∀ {s n π d e k ty}, p.At s n π (.deco d) → d.arg = some e → (k, ty) ∈ publishedDecoArgs →
        String.ofList d.name.1 ∈ decoNames k →
        ∃ a, v.at? (.key s :: .key n :: (π ++ [.key "argument"])) = some a ∧
          (k ≠ "minValue" → k ≠ "maxValue" → (ArgTy.Has ty a ↔ ty.Fits P.addLineNumbers e)) ∧
          (k = "minValue" → (∀ is, e ≠ .object is) → (ArgTy.Has ty a ↔ e.Negatable)) ∧
          (k = "maxValue" → ArgTy.Has ty a) := by
  obtain ⟨t, p, h1, h2, h3⟩ := parse_at h
  refine ⟨t, p, h1, h2, fun {s n π d e k ty} ha he hk hd => ?_⟩
  obtain ⟨y, hy, hat⟩ := h3 ha
  obtain ⟨name, arg⟩ := d
  simp only at he hd
  subst he
  rw [Node.val] at hy
  unfold Deco.val at hy
  simp only at hy
  obtain ⟨a, hw, hy⟩ := bind_ok' hy
  replace hy := inRule_ok hy
  rw [show txt name.1 = String.ofList name.1 from rfl] at hy
  have hargAt : ∀ t x, y = .dict [("type", .str t), ("argument", x)] →
      v.at? (.key s :: .key n :: (π ++ [.key "argument"])) = some x := by
    rintro t x rfl
    rw [show (PStep.key s :: PStep.key n :: (π ++ [PStep.key "argument"])) =
      (PStep.key s :: PStep.key n :: π) ++ [PStep.key "argument"] from rfl, Val.at?_append, hat]
    rfl
  generalize String.ofList name.1 = nm at hd hy
  simp only [publishedDecoArgs, List.mem_cons, List.not_mem_nil, or_false, Prod.mk.injEq] at hk
  rcases hk with ⟨rfl, rfl⟩ | ⟨rfl, rfl⟩ | ⟨rfl, rfl⟩ | ⟨rfl, rfl⟩ | ⟨rfl, rfl⟩ | ⟨rfl, rfl⟩ | ⟨rfl, rfl⟩ | ⟨rfl, rfl⟩ <;>
    simp only [decoNames, List.mem_cons, List.not_mem_nil, or_false] at hd
  case inr.inr.inr.inr.inr.inl =>
    have : (Decorators.minValArg a).map (Decorators.ddata "min_value") = .ok y := by
      rcases hd with rfl | rfl <;> exact hy
    cases hx : Decorators.minValArg a with
    | error e => rw [hx] at this; cases this
    | ok x =>
      rw [hx] at this; cases this
      exact ⟨x, hargAt _ x rfl, fun h => absurd rfl h, fun _ ho => minValArg_int hw ho hx, fun h => absurd h (by decide)⟩
  case inr.inr.inr.inr.inr.inr.inl =>
    have : (pyInt a).map (Decorators.ddata "max_value") = .ok y := by
      rcases hd with rfl | rfl <;> exact hy
    cases hx : pyInt a with
    | error e => rw [hx] at this; cases this
    | ok x =>
      rw [hx] at this; cases this
      exact ⟨x, hargAt _ x rfl, fun _ h => absurd rfl h, fun h => absurd h (by decide), fun _ =>
        has_int.mpr (.inl (pyInt_int hx))⟩
  all_goals
    have hy' : ∃ t, y = .dict [("type", .str t), ("argument", a)] := by
      rcases hd with rfl | rfl <;> (cases hy; exact ⟨_, rfl⟩)
    obtain ⟨t, hy'⟩ := hy'
    exact ⟨a, hargAt t a hy', fun _ _ => ArgTy.fits_iff _ hw, fun h => absurd h (by decide), fun h => absurd h (by decide)⟩

/-- **C79, negation.** The operand of `!` is published as `bool | str`: that is right for `true`, `false`,
texts and identifiers, and for nothing else. -/
theorem C79_not {P : Parser} {text path v} (h : P.parse text path = .ok v) :
    ∃ t p, chosenText text path = .ok t ∧ Spells t p ∧
      ∀ {s n π e}, p.At s n π (.expr (.not e)) → ∃ a,
        v.at? (.key s :: .key n :: (π ++ [.key "operator", .key "operands", .key "bool_value"])) = some a ∧
          (ArgTy.boolOrText.Has a ↔ e.IsBool ∨ e.IsText) := by
  obtain ⟨t, p, h1, h2, h3⟩ := parse_at h
  refine ⟨t, p, h1, h2, fun {s n π e} ha => ?_⟩
  obtain ⟨y, hy, hat⟩ := h3 ha
  rw [Node.val, Expr.val] at hy
  obtain ⟨w, hw, hy⟩ := bind_ok' hy
  cases hy
  refine ⟨w, ?_, ArgTy.fits_iff .boolOrText hw⟩
  rw [show (PStep.key s :: PStep.key n :: (π ++ [PStep.key "operator", .key "operands", .key "bool_value"])) =
    (PStep.key s :: PStep.key n :: π) ++ [PStep.key "operator", .key "operands", .key "bool_value"] from rfl,
    Val.at?_append, hat]
  rfl

/-! ### Concrete cases -/

/-- `max` and `union` are published with texts as parameters; the types are right for texts and
identifiers, not for numbers -/
theorem C79_numbers_differ : Parser.parse ⟨false⟩ (some "var v = max(1, 2)\n") .none =
    .ok (.dict [("globals", .dict [("scope", .dict [("value", .str "resourceGroup")])]),
      ("variables", .dict [("v", .dict [("decorators", .list []), ("value", .dict [("function", .dict
        [("type", .str "max"), ("parameters", .dict [("arg_1", .int 1), ("arg_2", .int 2)])])])])])]) ∧
    ArgRow.mk "max" [("arg_1", .text), ("arg_2", .text), ("arg_3", .text)] (some ("arg_", .text)) ∈ publishedArgs ∧
    ¬ ArgTy.text.Has (.int 1) :=
  ⟨eq_of_outIs (by decide +kernel), by simp [publishedArgs], nofun⟩

/-- a call with the published types, and decorators with and without them -/
example : Parser.parse ⟨false⟩ (some "@minValue(-1)\n@maxLength(x)\nparam p int = padLeft(a, 3)\n") .none =
    .ok (.dict [("globals", .dict [("scope", .dict [("value", .str "resourceGroup")])]),
      ("parameters", .dict [("p", .dict [("decorators", .list [
        .dict [("type", .str "min_value"), ("argument", .int (-1))],
        .dict [("type", .str "max_length"), ("argument", .elem "x")]]),
        ("type", .str "int"), ("default", .dict [("function", .dict [("type", .str "pad_left"),
          ("parameters", .dict [("value_to_pad", .elem "a"), ("total_length", .int 3),
            ("padding_character", .none)])])])])])]) ∧
    ArgTy.int.Has (.int (-1)) ∧ ¬ ArgTy.int.Has (.elem "x") ∧ ArgTy.valueOrNone.Has .none :=
  ⟨eq_of_outIs (by decide +kernel), .int, nofun, .noValue⟩

end Pycep
