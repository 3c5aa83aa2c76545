import Verif.Types.Lazy
import Verif.Props.PtracEvent
/-!
# Properties of lazy sequences and lists (C42, C49)

Specification of C42: every iterator walks the list of elements on its own.
-/
namespace Props
open Py Types Ptrac

/-! ## C42: lazy sequences -/

/-- Programs that advance only iterators they have taken; `n` iterators exist at the start. -/
def ValidOps : Nat → List LazyOp → Prop
  | _, [] => True
  | n, .iter :: ops => ValidOps (n + 1) ops
  | n, .next i :: ops => i < n ∧ ValidOps n ops

/-- Number of `next` calls of iterator `i`. -/
def nextCalls (i : Nat) : List LazyOp → Nat
  | [] => 0
  | .iter :: ops => nextCalls i ops
  | .next j :: ops => (if j = i then 1 else 0) + nextCalls i ops

/-- What an iterator of its own over the list `vs` gives at its `k`th call. -/
def nth {α : Type} (vs : List α) (k : Nat) : Next α :=
  match vs[k]? with
  | some v => .value v
  | none => .stop

/-- What iterator `i` gave, in order. -/
def given {α : Type} (i : Nat) (out : List (Nat × Next α)) : List (Next α) :=
  out.filterMap fun x => if x.1 = i then some x.2 else none

theorem given_cons {α : Type} (i j : Nat) (r : Next α) (out : List (Nat × Next α)) :
    given i ((j, r) :: out) = if j = i then r :: given i out else given i out := by
  by_cases h : j = i
  · rw [if_pos h]; simp [given, h]
  · rw [if_neg h]; simp [given, h]

theorem lazy_run {α : Type} (vs : List α) (ops : List LazyOp) : ∀ (g : LazySeq α) (rest : List α),
    g.src = rest.map .ok → vs = g.cache ++ rest → (∀ p ∈ g.pos, p ≤ vs.length) → ValidOps g.pos.length ops → ∀ i,
    (∃ q ≤ g.cache.length, g.pos[i]?.getD 0 = q) →
    (∀ p ∈ g.pos, p ≤ g.cache.length) →
    given i (g.exec ops).1 = (List.range (nextCalls i ops)).map fun k => nth vs (g.pos[i]?.getD 0 + k) := by
  induction ops with
  | nil => intros; rfl
  | cons op ops ih =>
    intro g rest h1 h2 h3 h4 i h5 h6
    cases op with
    | iter =>
      have h := ih g.iter rest h1 h2 (by
          intro p hp
          rcases List.mem_append.1 hp with hp | hp
          · exact h3 p hp
          · simp at hp; omega) (by simpa [LazySeq.iter, ValidOps] using h4) i
      have hp : g.iter.pos[i]?.getD 0 = g.pos[i]?.getD 0 := by
        show (g.pos ++ [0])[i]?.getD 0 = _
        rcases Nat.lt_trichotomy i g.pos.length with hi | hi | hi
        · rw [List.getElem?_append_left hi]
        · subst hi; simp
        · rw [List.getElem?_eq_none (by simp; omega), List.getElem?_eq_none (by omega)]
      rw [hp] at h
      exact h h5 (by
        intro p hp
        rcases List.mem_append.1 hp with hp | hp
        · exact h6 p hp
        · simp at hp; omega)
    | next j =>
      obtain ⟨hj, h4⟩ := h4
      have hpj : g.pos[j]? = some g.pos[j] := List.getElem?_eq_getElem hj
      have hle := h6 g.pos[j] (List.getElem_mem hj)
      -- the step
      have step : ∃ g' rest', g.next j = (nth vs g.pos[j], g') ∧ g'.src = rest'.map .ok ∧ vs = g'.cache ++ rest' ∧
          g'.pos.length = g.pos.length ∧ (∀ p ∈ g'.pos, p ≤ g'.cache.length) ∧
          (∀ k, g'.pos[i]?.getD 0 = g.pos[i]?.getD 0 + (if j = i then 1 else 0) ∨
            (j = i ∧ g'.pos[i]?.getD 0 = g.pos[i]?.getD 0 ∧ nth vs (g.pos[i]?.getD 0 + k) = .stop)) := by
        have hset : ∀ q, (g.pos.set j q)[i]?.getD 0 = if j = i then q else g.pos[i]?.getD 0 := by
          intro q
          by_cases hji : j = i
          · subst hji; simp [hj]
          · rw [List.getElem?_set_ne hji, if_neg hji]
        have hmem : ∀ (q n : Nat), g.cache.length ≤ n → q ≤ n → ∀ p ∈ g.pos.set j q, p ≤ n := by
          intro q n hn hq p hp
          rcases List.mem_or_eq_of_mem_set hp with hp | hp
          · exact Nat.le_trans (h6 p hp) hn
          · omega
        have hinc : ∀ k : Nat, (g.pos.set j (g.pos[j] + 1))[i]?.getD 0 = g.pos[i]?.getD 0 + (if j = i then 1 else 0) := by
          intro _
          rw [hset]
          by_cases hji : j = i
          · subst hji; rw [if_pos rfl, if_pos rfl, hpj]; rfl
          · rw [if_neg hji, if_neg hji]; rfl
        cases hc : g.cache[g.pos[j]]? with
        | some v =>
          obtain ⟨hlt, -⟩ := List.getElem?_eq_some_iff.1 hc
          refine ⟨{ g with pos := g.pos.set j (g.pos[j] + 1) }, rest, ?_, h1, h2, by simp, hmem _ _ (Nat.le_refl _) hlt, fun k => .inl (hinc k)⟩
          have : nth vs g.pos[j] = .value v := by
            rw [nth, h2, List.getElem?_append_left hlt, hc]
          rw [LazySeq.next, hpj, this]
          simp only [hc]
        | none =>
          have hge := List.getElem?_eq_none_iff.1 hc
          have hpe : g.pos[j] = g.cache.length := by omega
          cases rest with
          | nil =>
            have hstop : ∀ k, nth vs (g.pos[j] + k) = .stop := by
              intro k
              rw [nth, List.getElem?_eq_none (by rw [h2]; simp; omega)]
            refine ⟨g, [], ?_, h1, h2, rfl, h6, fun k => ?_⟩
            · have := hstop 0
              rw [Nat.add_zero] at this
              rw [LazySeq.next, hpj, this]
              simp only [hc, h1, List.map_nil]
            · by_cases hji : j = i
              · subst hji
                refine .inr ⟨rfl, rfl, ?_⟩
                rw [hpj]; exact hstop k
              · rw [if_neg hji]; exact .inl rfl
          | cons v rest =>
            refine ⟨⟨rest.map .ok, g.cache ++ [v], g.pos.set j (g.pos[j] + 1)⟩, rest, ?_, rfl, by simp [h2], by simp,
              hmem _ _ (by simp) (by simp; omega), fun k => .inl (hinc k)⟩
            have : nth vs g.pos[j] = .value v := by
              rw [nth, h2, hpe, List.getElem?_append_right (Nat.le_refl _), Nat.sub_self]; rfl
            rw [LazySeq.next, hpj, this]
            simp only [hc, h1, List.map_cons]
      obtain ⟨g', rest', e1, e2, e3, e4, e5, e6⟩ := step
      have hlen : g'.cache.length ≤ vs.length := by rw [e3]; simp
      have hq : g'.pos[i]?.getD 0 ≤ g'.cache.length := by
        cases hx : g'.pos[i]? with
        | none => exact Nat.zero_le _
        | some q => exact e5 q (List.mem_of_getElem? hx)
      have h := ih g' rest' e2 e3 (fun p hp => Nat.le_trans (e5 p hp) hlen) (by rw [e4]; exact h4) i ⟨_, hq, rfl⟩ e5
      rw [LazySeq.exec]
      simp only [e1]
      rw [given_cons]
      by_cases hji : j = i
      · subst hji
        rw [if_pos rfl, nextCalls, if_pos rfl, Nat.add_comm, List.range_succ_eq_map, List.map_cons, List.map_map, h]
        have hd : g.pos[j]?.getD 0 = g.pos[j] := by rw [hpj]; rfl
        simp only [hd] at e6 ⊢
        congr 1
        apply List.map_congr_left
        intro k _
        show nth vs _ = nth vs (g.pos[j] + (k + 1))
        rcases e6 (k + 1) with e | ⟨-, e, e'⟩
        · rw [e, if_pos trivial, Nat.add_assoc, Nat.add_comm 1]
        · rw [e, e']
          rcases e6 k with f | ⟨-, -, f⟩
          · rw [e] at f; simp at f
          · exact f
      · rw [if_neg hji, nextCalls, if_neg hji, Nat.zero_add, h]
        rcases e6 0 with e | ⟨e, -⟩
        · rw [e, if_neg hji]; rfl
        · exact absurd e hji

/-- C42. If every element can be read, then in every program, however the iterators are interleaved, each iterator
gives the elements in order, from the first, and then stops for good. Missing: sequences with an element that cannot be read,
for which the claim is false (`C42_failing_violated`). -/
theorem C42_partial {α : Type} (vs : List α) (ops : List LazyOp) (h : ValidOps 0 ops) (i : Nat) :
    given i ((LazySeq.new (vs.map .ok)).exec ops).1 = (List.range (nextCalls i ops)).map (nth vs) := by
  have := lazy_run vs ops (LazySeq.new (vs.map .ok)) vs rfl rfl (by simp [LazySeq.new]) h i ⟨0, Nat.zero_le _, by simp [LazySeq.new]⟩
    (by simp [LazySeq.new])
  simpa [LazySeq.new] using this

/-- Two interleaved iterators and a third that starts when they are done. -/
example : ValidOps 0 [.iter, .next 0, .iter, .next 1, .next 1, .next 0, .next 1, .iter, .next 2] ∧
    given 1 ((LazySeq.new ([7, 8].map .ok)).exec [.iter, .next 0, .iter, .next 1, .next 1, .next 0, .next 1, .iter, .next 2]).1
      = [.value 7, .value 8, .stop] := by
  refine ⟨by simp [ValidOps], by decide⟩

/-- C42 for the events of a history: reading the text succeeded, so every event of its lazy sequence can be read,
and they are the events of the history. -/
theorem C42_events (s : Str) (h : History) (hs : histParse s = .ok h) : ∃ m, reMatch historyRe s = some m ∧
    ∀ ops, ValidOps 0 ops → ∀ i,
      given i ((LazySeq.new ((finditer (eventBody 1) (tok m 2)).map evParse)).exec ops).1
        = (List.range (nextCalls i ops)).map (nth h.events) := by
  unfold histParse at hs
  cases hm : reMatch historyRe s with
  | none => rw [hm] at hs; cases hs
  | some m =>
    refine ⟨m, rfl, ?_⟩
    rw [hm] at hs
    simp only at hs
    cases hi : iParse (tok m 1) with
    | error e => rw [hi] at hs; cases hs
    | ok x =>
      rw [hi] at hs
      change (each evChecked (finditer (eventBody 1) (tok m 2))).bind _ = _ at hs
      cases he : each evChecked (finditer (eventBody 1) (tok m 2)) with
      | error e => rw [he] at hs; cases hs
      | ok es =>
        rw [he] at hs
        have hs := Except.ok.inj hs
        subst hs
        have key : ∀ (ts : List Str) (es : List Event), each evChecked ts = .ok es → ts.map evParse = es.map .ok := by
          intro ts
          induction ts with
          | nil => intro es h; cases h; rfl
          | cons t ts ih =>
            intro es h
            rw [each] at h
            unfold evChecked at h
            cases h1 : evParse t with
            | error e => rw [h1] at h; cases h
            | ok e =>
              rw [h1] at h
              cases h2 : e.str with
              | error x =>
                change ((e.str).bind _).bind _ = _ at h
                rw [h2] at h; cases h
              | ok x =>
                change ((e.str).bind _).bind _ = _ at h
                rw [h2] at h
                change (each evChecked ts).bind _ = _ at h
                cases h3 : each evChecked ts with
                | error x => rw [h3] at h; cases h
                | ok ys =>
                  rw [h3] at h
                  have h := Except.ok.inj h
                  subst h
                  rw [List.map_cons, List.map_cons, h1, ih ys h3]
        rw [key _ es he]
        intro ops ho i
        exact C42_partial es ops ho i

theorem exec_append {α : Type} (xs ys : List LazyOp) : ∀ g : LazySeq α,
    g.exec (xs ++ ys) = ((g.exec xs).1 ++ ((g.exec xs).2.exec ys).1, ((g.exec xs).2.exec ys).2) := by
  induction xs with
  | nil => intro g; rfl
  | cons x xs ih =>
    intro g
    cases x with
    | iter => exact ih g.iter
    | next i =>
      rw [List.cons_append, LazySeq.exec, LazySeq.exec]
      simp only [ih]
      rfl

theorem exec_first {α : Type} (tl : List (Res α)) (vs : List α) : ∀ cache : List α,
    (⟨vs.map .ok ++ tl, cache, [cache.length]⟩ : LazySeq α).exec (List.replicate vs.length (.next 0)) =
      (vs.map fun v => (0, .value v), ⟨tl, cache ++ vs, [(cache ++ vs).length]⟩) := by
  induction vs with
  | nil => intro cache; simp [LazySeq.exec]
  | cons v vs ih =>
    intro cache
    rw [List.length_cons, List.replicate_succ, LazySeq.exec]
    have : (⟨(v :: vs).map .ok ++ tl, cache, [cache.length]⟩ : LazySeq α).next 0 =
        (.value v, ⟨vs.map .ok ++ tl, cache ++ [v], [(cache ++ [v]).length]⟩) := by
      simp [LazySeq.next]
    rw [this]
    simp only [ih]
    simp

theorem exec_second {α : Type} (vs : List α) (n : Nat) : ∀ (done rest : List α), vs = done ++ rest →
    (⟨[], vs, [n, done.length]⟩ : LazySeq α).exec (List.replicate rest.length (.next 1)) =
      (rest.map fun v => (1, .value v), ⟨[], vs, [n, vs.length]⟩) := by
  intro done rest
  induction rest generalizing done with
  | nil => rintro rfl; simp [LazySeq.exec]
  | cons v rest ih =>
    intro h
    rw [List.length_cons, List.replicate_succ, LazySeq.exec]
    have : (⟨[], vs, [n, done.length]⟩ : LazySeq α).next 1 = (.value v, ⟨[], vs, [n, (done ++ [v]).length]⟩) := by
      simp [LazySeq.next, h]
    rw [this]
    simp only [ih (done ++ [v]) (by simp [h])]
    simp

/-- C42 fails whenever an element cannot be read: walking the sequence raises after the elements before it, and
walking it again ends silently in the same place. -/
theorem C42_failing_violated {α : Type} (vs : List α) (e : Err) (rs : List (Res α)) :
    let out := ((LazySeq.new (vs.map .ok ++ .error e :: rs)).exec (.iter :: (List.replicate vs.length (.next 0) ++
      (.next 0 :: .iter :: (List.replicate vs.length (.next 1) ++ [.next 1]))))).1
    given 0 out = vs.map .value ++ [.raise e] ∧ given 1 out = vs.map .value ++ [.stop] := by
  have e1 := exec_first (.error e :: rs) vs []
  have e2 := exec_second vs vs.length [] vs rfl
  have hg : ∀ i (k : Nat), given i (vs.map fun v => (k, Next.value v)) = if k = i then vs.map .value else [] := by
    intro i k
    clear e1 e2
    induction vs with
    | nil => simp [given]
    | cons v vs ih =>
      rw [List.map_cons, given_cons, ih]
      split <;> rfl
  have ha : ∀ i (a b : List (Nat × Next α)), given i (a ++ b) = given i a ++ given i b := by
    intro i a b; simp [given]
  have hs : (LazySeq.new (vs.map .ok ++ .error e :: rs)).exec (.iter :: (List.replicate vs.length (.next 0) ++
      (.next 0 :: .iter :: (List.replicate vs.length (.next 1) ++ [.next 1])))) =
      ((vs.map fun v => (0, .value v)) ++ (0, .raise e) :: ((vs.map fun v => (1, .value v)) ++ [(1, .stop)]),
        ⟨[], vs, [vs.length, vs.length]⟩) := by
    rw [LazySeq.exec]
    show (⟨vs.map .ok ++ .error e :: rs, [], [([] : List α).length]⟩ : LazySeq α).exec _ = _
    rw [exec_append, e1]
    simp only [List.nil_append]
    rw [LazySeq.exec]
    have n1 : (⟨.error e :: rs, vs, [vs.length]⟩ : LazySeq α).next 0 = (.raise e, ⟨[], vs, [vs.length]⟩) := by
      simp [LazySeq.next]
    rw [n1]
    simp only
    rw [LazySeq.exec]
    show (_ ++ (0, Next.raise e) :: ((⟨[], vs, [vs.length, ([] : List α).length]⟩ : LazySeq α).exec _).1,
      ((⟨[], vs, [vs.length, ([] : List α).length]⟩ : LazySeq α).exec _).2) = _
    rw [exec_append, e2]
    simp only
    rw [LazySeq.exec]
    have n2 : (⟨[], vs, [vs.length, vs.length]⟩ : LazySeq α).next 1 = (.stop, ⟨[], vs, [vs.length, vs.length]⟩) := by
      simp [LazySeq.next]
    rw [n2]
    rfl
  intro out
  have ho : out = _ := congrArg Prod.fst hs
  rw [ho]
  constructor
  · rw [ha, given_cons, ha, hg, hg, given_cons]; simp [given]
  · rw [ha, given_cons, ha, hg, hg, given_cons]; simp [given]

set_option maxRecDepth 20000 in
/-- Such a sequence: `Generator(Event)` of two events, the second with an unknown event type. -/
example : ∃ v, (finditer (eventBody 1) c!"       5000         1         2         3         4
   0.00000E+00  0.00000E+00  0.00000E+00
       1234         1         2         3         4
   0.00000E+00  0.00000E+00  0.00000E+00
").map evParse = [v].map .ok ++ .error .name :: [] :=
  ⟨⟨⟨0, ⟨65, by decide⟩, [.int (.num 1), .int (.num 2), .int (.num 3), .int (.num 4)]⟩,
    ⟨0, [.num (.fin ⟨false, 0, -5⟩), .num (.fin ⟨false, 0, -5⟩), .num (.fin ⟨false, 0, -5⟩)]⟩⟩, by decide +kernel⟩

/-! ## C49: lists without unset elements -/

/-- C49. A list that was built holds elements, none of them unset. -/
theorem C49_built {α : Type} (m : Lists α) (a t : TupleArg α) (h : tupleInit m a = .ok t) :
    ∃ vs : List α, t.elems m = some (vs.map some) := by
  have key : ∀ xs : List (Option α), xs.any (·.isNone) = false → ∃ vs : List α, xs = vs.map some := by
    intro xs hx
    induction xs with
    | nil => exact ⟨[], rfl⟩
    | cons x xs ih =>
      rw [List.any_cons, Bool.or_eq_false_iff] at hx
      obtain ⟨vs, rfl⟩ := ih hx.2
      cases x with
      | none => exact absurd hx.1 (by simp)
      | some v => exact ⟨v :: vs, rfl⟩
  cases a with
  | none => cases h
  | tuple xs =>
    rw [tupleInit] at h
    split at h
    · cases h
    · rename_i hn
      have h := Except.ok.inj h
      subst h
      obtain ⟨vs, rfl⟩ := key xs (by
        cases hx : xs.any (·.isNone) with
        | false => rfl
        | true => exact absurd (.inr hx) hn)
      exact ⟨vs, rfl⟩
  | list r =>
    rw [tupleInit] at h
    cases hr : m[r]? with
    | none => rw [hr] at h; cases h
    | some xs =>
      rw [hr] at h
      simp only at h
      split at h
      · cases h
      · rename_i hn
        have h := Except.ok.inj h
        subst h
        obtain ⟨vs, rfl⟩ := key xs (by
          cases hx : xs.any (·.isNone) with
          | false => rfl
          | true => exact absurd hx hn)
        exact ⟨vs, hr⟩

/-- A program that changes the lists it knows, those of `m`. -/
def changes {α : Type} (m : Lists α) : List (Nat × List (Option α)) → Lists α
  | [] => m
  | (r, xs) :: rest => changes (assign m r xs) rest

theorem changes_keep {α : Type} (ps : List (Nat × List (Option α))) (n : Nat) (h : ∀ p ∈ ps, p.1 ≠ n) :
    ∀ m : Lists α, (changes m ps)[n]? = m[n]? := by
  induction ps with
  | nil => intro m; rfl
  | cons p ps ih =>
    intro m
    rw [changes, ih (fun q hq => h q (List.mem_cons_of_mem _ hq)), assign, List.getElem?_set_ne (h p (by simp))]

/-- C49. A list read from text or built from a tuple has no unset element, whatever the program then does to its
own lists.  Missing: a `Tuple` built from a list (`C49_alias_violated`). -/
theorem C49_partial {α : Type} (m : Lists α) (vs : List α) (ps : List (Nat × List (Option α)))
    (hps : ∀ p ∈ ps, p.1 < m.length) :
    (∃ t, (tupleParse m vs).2 = .ok t ∧ t.elems (changes (tupleParse m vs).1 ps) = some (vs.map some)) ∧
    (∀ xs t, tupleInit m (.tuple xs) = .ok t → xs ≠ [] ∧ none ∉ xs ∧ t.elems (changes m ps) = some xs) := by
  constructor
  · have hl : (m ++ [vs.map some])[m.length]? = some (vs.map some) := by simp
    refine ⟨.list m.length, ?_, ?_⟩
    · show tupleInit (m ++ [vs.map some]) (.list m.length) = _
      rw [tupleInit, hl]
      simp only
      rw [if_neg (by simp)]
    · show (changes (m ++ [vs.map some]) ps)[m.length]? = _
      rw [changes_keep ps m.length (fun p hp => by have := hps p hp; omega), hl]
  · intro xs t h
    rw [tupleInit] at h
    split at h
    · cases h
    · rename_i hn
      have h := Except.ok.inj h
      subst h
      refine ⟨fun hx => hn (.inl hx), fun hx => hn (.inr ?_), rfl⟩
      rw [List.any_eq_true]
      exact ⟨none, hx, rfl⟩

example : (tupleInit [] (.tuple [some 1, some 2]) : Res (TupleArg Nat)).toOption.isSome = true ∧
    (tupleInit [] (.tuple [some 1, none]) : Res (TupleArg Nat)).toOption.isSome = false ∧
    (tupleInit [] (.tuple []) : Res (TupleArg Nat)).toOption.isSome = false := by decide

/-- C49 fails for every list the program keeps: appending `None` to it afterwards appends it to the `Tuple`. -/
theorem C49_alias_violated {α : Type} (m : Lists α) (r : Nat) (vs : List α) (h : m[r]? = some (vs.map some)) :
    ∃ t, tupleInit m (.list r) = .ok t ∧ t.elems (assign m r (vs.map some ++ [none])) = some (vs.map some ++ [none]) := by
  refine ⟨.list r, ?_, ?_⟩
  · rw [tupleInit, h]
    simp only
    rw [if_neg (by simp)]
  · obtain ⟨hr, -⟩ := List.getElem?_eq_some_iff.1 h
    show (m.set r _)[r]? = _
    rw [List.getElem?_set_self hr]

end Props
