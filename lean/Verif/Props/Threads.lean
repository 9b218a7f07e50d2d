import Verif.Threads
import Verif.Props.ApiProps
import Verif.Spec.Path
import Mathlib.Logic.Function.Iterate
/-
C82: calls in several threads do not disturb each other.
-/
namespace Pycep

/-! ### A call by itself -/

/-- a call in progress, with its own transformer -/
inductive Solo where
  | start (p : Parser) (c : Call)
  | parsed (ln : Bool) (t : Tree)
  | running (ln : Bool) (st : TState) (todo : List Task) (vals : List Val)
  | done (o : Outcome)

/-- one step -/
def Solo.step : Solo → Solo
  | .start p (.createTree text path) => .done (.tree (p.createTree text path))
  | .start p (.parse text path) =>
    match createTree' text path with
    | .error e => .done (.value (.error e))
    | .ok t => .parsed p.addLineNumbers t
  | .parsed ln t => .running ln ⟨[], []⟩ [.visit t] []
  | .running ln st (.visit (.tok t) :: todo) vals =>
    .running ln st todo (.tok (termName t.type) (String.ofList t.text) :: vals)
  | .running ln st (.visit .none :: todo) vals => .running ln st todo (.none :: vals)
  | .running ln st (.visit (.node d kids sp) :: todo) vals =>
    .running ln st (kids.map .visit ++ .call d kids.length sp :: todo) vals
  | .running ln st (.call d n sp :: todo) vals =>
    match callRule ln d sp (vals.take n).reverse st with
    | .ok (v, st) => .running ln st todo (v :: vals.drop n)
    | .error e => .done (.value (.error (raised e)))
  | .running _ _ [] (v :: _) => .done (.value (.ok v))
  | .running _ _ [] [] => .done (.value (.error .internal))
  | .done o => .done o

/-- some steps lead from `x` to `y` -/
def Reaches (x y : Solo) : Prop := ∃ k, Solo.step^[k] x = y

theorem Reaches.refl (x) : Reaches x x := ⟨0, rfl⟩
theorem Reaches.trans {x y z} : Reaches x y → Reaches y z → Reaches x z
  | ⟨j, hj⟩, ⟨k, hk⟩ => ⟨k + j, by rw [Function.iterate_add_apply, hj, hk]⟩
theorem Reaches.step {x y} (h : Reaches x.step y) : Reaches x y := by
  obtain ⟨k, hk⟩ := h
  exact ⟨k + 1, hk⟩

/-- where the transformation of a tree ends -/
def after (ln : Bool) (todo : List Task) (vals : List Val) : Except VErr (Val × TState) → Solo
  | .ok (v, st) => .running ln st todo (v :: vals)
  | .error e => .done (.value (.error (raised e)))

/-- where the transformation of a list of trees ends -/
def afterL (ln : Bool) (todo : List Task) (vals : List Val) : Except VErr (List Val × TState) → Solo
  | .ok (vs, st) => .running ln st todo (vs.reverse ++ vals)
  | .error e => .done (.value (.error (raised e)))

theorem transformList_length {ln : Bool} : ∀ {ts : List Tree} {st vs st'}, transformList ln ts st = .ok (vs, st') →
    vs.length = ts.length
  | [], st, vs, st', h => by rw [transformList] at h; cases h; rfl
  | t :: ts, st, vs, st', h => by
    rw [transformList] at h
    obtain ⟨⟨v, s1⟩, h1, h2⟩ := bind_ok' h
    obtain ⟨⟨ws, s2⟩, h3, h4⟩ := bind_ok' h2
    cases h4
    simp [transformList_length h3]

mutual
theorem reaches_visit {ln : Bool} : (t : Tree) → ∀ st todo vals,
    Reaches (.running ln st (.visit t :: todo) vals) (after ln todo vals (transform ln t st))
  | .tok t, st, todo, vals => by rw [transform]; exact .step (.refl _)
  | .none, st, todo, vals => by rw [transform]; exact .step (.refl _)
  | .node d kids sp, st, todo, vals => by
    refine .step ?_
    simp only [Solo.step]
    refine (reaches_visits kids st _ vals).trans ?_
    rw [transform]
    cases hl : transformList ln kids st with
    | error e => exact .refl _
    | ok r =>
      obtain ⟨args, st1⟩ := r
      have hn := transformList_length hl
      refine .step ?_
      simp only [afterL, Solo.step, bind, Except.bind]
      have h1 : ((args.reverse ++ vals).take kids.length).reverse = args := by
        rw [← hn, List.take_left' (by simp), List.reverse_reverse]
      have h2 : (args.reverse ++ vals).drop kids.length = vals := by
        rw [← hn, List.drop_left' (by simp)]
      rw [h1, h2]
      unfold callRule
      cases callbacks.lookup d with
      | none => exact .refl _
      | some f =>
        simp only
        cases f ln sp args st1 with
        | ok r => exact .refl _
        | error e => exact .refl _
theorem reaches_visits {ln : Bool} : (ts : List Tree) → ∀ st todo vals,
    Reaches (.running ln st (ts.map .visit ++ todo) vals) (afterL ln todo vals (transformList ln ts st))
  | [], st, todo, vals => by rw [transformList]; exact .refl _
  | t :: ts, st, todo, vals => by
    rw [List.map_cons, List.cons_append]
    refine (reaches_visit t st _ vals).trans ?_
    rw [transformList]
    cases transform ln t st with
    | error e => exact .refl _
    | ok r =>
      obtain ⟨v, st1⟩ := r
      refine (reaches_visits ts st1 _ (v :: vals)).trans ?_
      simp only [bind, Except.bind]
      cases transformList ln ts st1 with
      | error e => exact .refl _
      | ok r =>
        obtain ⟨vs, st2⟩ := r
        simp only [afterL, List.reverse_cons, List.append_assoc, List.cons_append, List.nil_append]
        exact .refl _
end

/-- a call by itself ends with its outcome -/
theorem reaches_done (p : Parser) (c : Call) : Reaches (.start p c) (.done (p.fresh c)) := by
  refine .step ?_
  cases c with
  | createTree text path => exact .refl _
  | parse text path =>
    simp only [Solo.step, Parser.fresh, parse_eq]
    cases createTree' text path with
    | error e => exact .refl _
    | ok t =>
      refine .step ?_
      refine (reaches_visit t _ _ _).trans ?_
      simp only [Except.bind, bicepToJson]
      cases transform p.addLineNumbers t ⟨[], []⟩ with
      | ok r => exact .step (.refl _)
      | error e => cases e <;> exact .refl _

theorem done_stays (o : Outcome) (k : Nat) : Solo.step^[k] (.done o) = .done o := by
  induction k with
  | zero => rfl
  | succ k ih => rw [Function.iterate_succ_apply]; exact ih

/-- from some number of steps on, the call is done, with its outcome; and it is done only with it -/
theorem solo_end (p : Parser) (c : Call) : (∃ n, ∀ k, n ≤ k → Solo.step^[k] (.start p c) = .done (p.fresh c)) ∧
    ∀ k o, Solo.step^[k] (.start p c) = .done o → o = p.fresh c := by
  obtain ⟨n, hn⟩ := reaches_done p c
  refine ⟨⟨n, fun k hk => ?_⟩, fun k o hk => ?_⟩
  · obtain ⟨j, rfl⟩ := Nat.exists_eq_add_of_le hk
    rw [Nat.add_comm, Function.iterate_add_apply, hn, done_stays]
  · have h1 : Solo.step^[n + k] (.start p c) = .done o := by rw [Function.iterate_add_apply, hk, done_stays]
    have h2 : Solo.step^[k + n] (.start p c) = .done (p.fresh c) := by rw [Function.iterate_add_apply, hn, done_stays]
    rw [Nat.add_comm, h2] at h1
    cases h1; rfl

/-! ### Several calls -/

/-- the transformer a thread works with -/
def Thread.addr : Thread → Option Addr
  | .running _ a _ _ => some a
  | _ => .none

/-- what a thread sees -/
def Thread.view (m : Memory) : Thread → Solo
  | .start p c => .start p c
  | .parsed ln t => .parsed ln t
  | .running ln a todo vals => .running ln (m.getD a ⟨[], []⟩) todo vals
  | .done o => .done o

theorem view_same {t : Thread} {m m' : Memory} (h : ∀ a, t.addr = some a → m'.getD a ⟨[], []⟩ = m.getD a ⟨[], []⟩) :
    t.view m' = t.view m := by
  cases t <;> simp only [Thread.view]
  rw [h _ rfl]

/-- what a step does: the view takes a step, other transformers stay as they are -/
theorem step_view {t : Thread} {m : Memory} (h : ∀ a, t.addr = some a → a < m.length) :
    (t.step m).1.view (t.step m).2 = (t.view m).step ∧
    m.length ≤ (t.step m).2.length ∧
    (∀ a < m.length, t.addr ≠ some a → (t.step m).2.getD a ⟨[], []⟩ = m.getD a ⟨[], []⟩) ∧
    (∀ a, (t.step m).1.addr = some a → a < (t.step m).2.length ∧ (t.addr = some a ∨ m.length ≤ a)) := by
  cases t with
  | start p c =>
    cases c with
    | createTree text path => exact ⟨rfl, Nat.le_refl _, fun _ _ _ => rfl, fun a ha => by cases ha⟩
    | parse text path =>
      simp only [Thread.step, Thread.view, Solo.step]
      cases createTree' text path <;>
        exact ⟨rfl, Nat.le_refl _, fun _ _ _ => rfl, fun a ha => by cases ha⟩
  | parsed ln t =>
    refine ⟨by simp [Thread.step, Thread.view, Solo.step], by simp [Thread.step], fun a ha _ => ?_, fun a ha => ?_⟩
    · simp only [Thread.step, List.getD_eq_getElem?_getD, List.getElem?_append_left ha]
    · simp only [Thread.step, Thread.addr, Option.some.injEq] at ha
      subst ha
      simp [Thread.step]
  | done o => exact ⟨rfl, Nat.le_refl _, fun _ _ _ => rfl, fun a ha => by cases ha⟩
  | running ln b todo vals =>
    have hb := h b rfl
    have key : ∀ todo' vals', (∀ a, (Thread.running ln b todo' vals').addr = some a →
        a < m.length ∧ ((Thread.running ln b todo vals).addr = some a ∨ m.length ≤ a)) := by
      intro todo' vals' a ha
      cases ha
      exact ⟨hb, .inl rfl⟩
    rcases todo with _ | ⟨task, todo⟩
    · cases vals <;> exact ⟨rfl, Nat.le_refl _, fun _ _ _ => rfl, fun a ha => by cases ha⟩
    · cases task with
      | visit t => cases t <;> exact ⟨rfl, Nat.le_refl _, fun _ _ _ => rfl, key _ _⟩
      | call d n sp =>
        simp only [Thread.step, Thread.view, Solo.step]
        cases callRule ln d sp (vals.take n).reverse (m.getD b ⟨[], []⟩) with
        | error e => exact ⟨rfl, Nat.le_refl _, fun _ _ _ => rfl, fun a ha => by cases ha⟩
        | ok r =>
          refine ⟨?_, by simp, fun a ha hne => ?_, fun a ha => ?_⟩
          · simp [List.getD_eq_getElem?_getD, hb]
          · have : b ≠ a := fun e => hne (by rw [e]; rfl)
            simp [List.getD_eq_getElem?_getD, List.getElem?_set_ne this]
          · cases ha
            exact ⟨by simpa using hb, .inl rfl⟩

/-- the transformers of the threads exist, and no two threads have the same -/
def Threads.Apart (s : Threads) : Prop :=
  (∀ (i : Nat) (t : Thread) a, s.threads[i]? = some t → t.addr = some a → a < s.mem.length) ∧
  ∀ (i j : Nat) (t t' : Thread) a, s.threads[i]? = some t → s.threads[j]? = some t' → t.addr = some a → t'.addr = some a → i = j

theorem init_apart (m : Memory) (cs : List (Parser × Call)) : (Threads.init m cs).Apart := by
  have : ∀ (i : Nat) (t : Thread), (Threads.init m cs).threads[i]? = some t → t.addr = .none := by
    intro i t h
    simp only [Threads.init, List.getElem?_map, Option.map_eq_some_iff] at h
    obtain ⟨c, _, rfl⟩ := h
    rfl
  exact ⟨fun i t a h1 h2 => by simp [this i t h1] at h2, fun i j t t' a h1 _ h2 => by simp [this i t h1] at h2⟩

/-- the view of the thread with number `i` -/
def Threads.view (s : Threads) (i : Nat) : Option Solo := s.threads[i]?.map (·.view s.mem)

theorem step_apart {s : Threads} (h : s.Apart) (i : Nat) :
    (s.step i).Apart ∧ ∀ j, (s.step i).view j = if j = i then (s.view j).map Solo.step else s.view j := by
  unfold Threads.step
  cases hi : s.threads[i]? with
  | none =>
    refine ⟨h, fun j => ?_⟩
    by_cases e : j = i
    · subst e; simp [Threads.view, hi]
    · simp [e]
  | some t =>
    obtain ⟨h1, h2, h3, h4⟩ := step_view (m := s.mem) (h.1 i t · hi)
    simp only
    have hlt : i < s.threads.length := (List.getElem?_eq_some_iff.mp hi).1
    have hne : ∀ j, j ≠ i → (s.threads.set i (t.step s.mem).1)[j]? = s.threads[j]? := fun j hj =>
      List.getElem?_set_ne (Ne.symm hj)
    have heq : (s.threads.set i (t.step s.mem).1)[i]? = some (t.step s.mem).1 := by simp [hlt]
    refine ⟨⟨fun j u a hj ha => ?_, fun j k u u' a hj hk ha ha' => ?_⟩, fun j => ?_⟩
    · by_cases e : j = i
      · subst e
        simp only [heq, Option.some.injEq] at hj
        subst hj
        exact (h4 a ha).1
      · simp only [hne j e] at hj
        exact Nat.lt_of_lt_of_le (h.1 j u a hj ha) h2
    · by_cases e : j = i <;> by_cases e' : k = i
      · rw [e, e']
      · subst e
        simp only [heq, Option.some.injEq] at hj
        subst hj
        simp only [hne k e'] at hk
        rcases (h4 a ha).2 with h5 | h5
        · exact h.2 j k t u' a hi hk h5 ha'
        · exact absurd (h.1 k u' a hk ha') (Nat.not_lt.mpr h5)
      · subst e'
        simp only [heq, Option.some.injEq] at hk
        subst hk
        simp only [hne j e] at hj
        rcases (h4 a ha').2 with h5 | h5
        · exact h.2 j k u t a hj hi ha h5
        · exact absurd (h.1 j u a hj ha) (Nat.not_lt.mpr h5)
      · simp only [hne j e] at hj
        simp only [hne k e'] at hk
        exact h.2 j k u u' a hj hk ha ha'
    · by_cases e : j = i
      · subst e
        simp only [if_true, Threads.view, heq, hi, Option.map_some, h1]
      · simp only [if_neg e, Threads.view, hne j e]
        cases hj : s.threads[j]? with
        | none => rfl
        | some u =>
          simp only [Option.map_some, Option.some.injEq]
          refine view_same fun a ha => h3 a (h.1 j u a hj ha) fun hti => e (h.2 j i u t a hj hi ha hti)

theorem run_view {s : Threads} (h : s.Apart) (σ : List Nat) (i : Nat) :
    (s.run σ).view i = (s.view i).map (Solo.step^[σ.count i]) := by
  induction σ generalizing s with
  | nil => simp [Threads.run]
  | cons j σ ih =>
    obtain ⟨h1, h2⟩ := step_apart h j
    have := ih h1
    simp only [Threads.run, List.foldl_cons] at this ⊢
    rw [this, h2 i, List.count_cons]
    by_cases e : i = j
    · subst e
      simp [Option.map_map, Function.comp_def]
    · simp [e, Ne.symm e]

/-- **C82.** Calls in several threads, on one or several parsers, whatever the order in which the threads take
their steps: a thread is done only with the outcome its call has on a newly built parser, and it is done as
soon as it has taken `n` steps, where `n` depends on its own call only, whatever the others do. -/
theorem C82_threads (p : Parser) (c : Call) : ∃ n, ∀ (m : Memory) (cs : List (Parser × Call)) (i : Nat),
    cs[i]? = some (p, c) → ∀ σ : List Nat,
      (∀ o, ((Threads.init m cs).run σ).threads[i]? = some (.done o) → o = p.fresh c) ∧
      (n ≤ σ.count i → ((Threads.init m cs).run σ).threads[i]? = some (.done (p.fresh c))) := by
  obtain ⟨⟨n, hn⟩, ho⟩ := solo_end p c
  refine ⟨n, fun m cs i h σ => ?_⟩
  have hv : (Threads.init m cs).view i = some (.start p c) := by
    simp [Threads.view, Threads.init, h, Thread.view]
  have hr := run_view (init_apart m cs) σ i
  rw [hv] at hr
  refine ⟨fun o hd => ?_, fun hσ => ?_⟩
  · simp only [Threads.view, hd, Option.map_some, Thread.view, Option.some.injEq] at hr
    exact ho _ o hr.symm
  · rw [Option.map_some, hn _ hσ] at hr
    simp only [Threads.view, Option.map_eq_some_iff] at hr
    obtain ⟨t, h1, h2⟩ := hr
    rw [h1]
    cases t <;> simp only [Thread.view] at h2
    · cases h2
    · cases h2
    · cases h2
    · cases h2; rfl

/-- two calls of `parse` on one parser; both transformers collect imports -/
def threadsExample : List (Parser × Call) :=
  [(⟨false⟩, .parse (some "import {a} from 'f'\n") .none), (⟨false⟩, .parse (some "import {b} from 'g'\n") .none)]

/-- the names of the entries a transformer has collected -/
def collected (st : TState) : List (Option String) := st.imports.map fun v =>
  match v.at? [.key "imports", .key "__name__"] with
  | some (.str s) => some s
  | _ => .none

/-- the threads take turns, step by step: there are two transformers, each has collected its own entries -/
example : ((Threads.init [] threadsExample).run ((List.replicate 20 [0, 1]).flatten)).mem.map collected =
    [[some "a"], [some "b"]] := by
  decide +kernel

/-- and both calls have ended with a result -/
example : ((Threads.init [] threadsExample).run ((List.replicate 20 [1, 0]).flatten)).threads.map
    (fun t => match t with | .done (.value (.ok _)) => true | _ => false) = [true, true] := by
  decide +kernel

end Pycep
