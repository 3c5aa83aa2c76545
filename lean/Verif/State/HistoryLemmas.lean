import Verif.State.DataLemmas
/-!
# Lemmas for C30 and C31
-/
namespace State
open Py Types Inp

theorem npsCards_eq (w : World) : npsCards w = w.data.filter (w.is Obj.isNps) := by
  unfold npsCards
  refine List.filter_congr ?_
  intro r _
  unfold World.is
  cases w.get r with
  | none => rfl
  | some o => cases o <;> rfl

theorem checkNpp_iff (a : Arg) (h : Held) : checkNpp a = .ok h ↔ Positive a h := by
  constructor
  · intro hc
    cases a with
    | none => simp [checkNpp, holdInt] at hc
    | int n =>
      simp only [checkNpp, holdInt, Held.gt0] at hc
      by_cases hn : 0 < n
      · simp [hn] at hc; subst hc; exact .int hn
      · simp [hn] at hc
    | integer v =>
      cases v with
      | num n =>
        simp only [checkNpp, holdInt, Held.gt0] at hc
        by_cases hn : 0 < n
        · simp [hn] at hc; subst hc; exact .integer hn
        · simp [hn] at hc
      | hor x => simp [checkNpp, holdInt, Held.gt0] at hc
    | str s =>
      simp only [checkNpp, holdInt] at hc
      cases hp : intParse s with
      | error e => simp [hp] at hc
      | ok v =>
        cases v with
        | num n =>
          simp only [hp, Held.gt0] at hc
          by_cases hn : 0 < n
          · simp [hn] at hc; subst hc; exact .str hp hn
          · simp [hn] at hc
        | hor x => simp [hp, Held.gt0] at hc
    | flt m e =>
      simp only [checkNpp, holdInt, Held.gt0] at hc
      by_cases hn : 0 < m
      · simp [hn] at hc; subst hc; exact .flt hn
      · simp [hn] at hc
    | other => simp [checkNpp, holdInt, Held.gt0] at hc
  · intro hp
    cases hp with
    | int h => simp [checkNpp, holdInt, Held.gt0, h]
    | integer h => simp [checkNpp, holdInt, Held.gt0, h]
    | str h1 h => simp [checkNpp, holdInt, h1, Held.gt0, h]
    | flt h => simp [checkNpp, holdInt, Held.gt0, h]

theorem flt_odd (m : Int) (e : Nat) : m % 2 ^ (e + 1) = 2 ^ e ↔ ∃ k, m = (2 * k + 1) * 2 ^ e := by
  have hpos : (0 : Int) < 2 ^ e := Int.pow_pos (by decide)
  constructor
  · intro h
    have h2 := Int.mul_ediv_add_emod m (2 ^ (e + 1))
    rw [h] at h2
    generalize m / 2 ^ (e + 1) = q at h2
    refine ⟨q, ?_⟩
    rw [← h2, Int.add_mul, Int.one_mul, Int.pow_succ]
    congr 1
    rw [Int.mul_comm (2 * q), ← Int.mul_assoc]
  · rintro ⟨k, rfl⟩
    rw [Int.add_mul, Int.one_mul, Int.pow_succ]
    rw [show (2 * k * 2 ^ e : Int) = 2 ^ e * 2 * k from by
      rw [Int.mul_comm (2 * k), ← Int.mul_assoc]]
    rw [Int.mul_add_emod_self_left]
    exact Int.emod_eq_of_lt (Int.le_of_lt hpos) (by omega)

theorem checkSeed_iff (a : Arg) (h : Held) : checkSeed a = .ok h ↔ OddSeed a h := by
  constructor
  · intro hc
    cases a with
    | none => simp [checkSeed, holdInt] at hc
    | int n =>
      simp only [checkSeed, holdInt, Held.odd] at hc
      by_cases hn : n % 2 = 1
      · simp [hn] at hc; subst hc; exact .int hn
      · simp [hn] at hc
    | integer v =>
      cases v with
      | num n =>
        simp only [checkSeed, holdInt, Held.odd] at hc
        by_cases hn : n % 2 = 1
        · simp [hn] at hc; subst hc; exact .integer hn
        · simp [hn] at hc
      | hor x => simp [checkSeed, holdInt, Held.odd] at hc
    | str s =>
      simp only [checkSeed, holdInt] at hc
      cases hp : intParse s with
      | error e => simp [hp] at hc
      | ok v =>
        cases v with
        | num n =>
          simp only [hp, Held.odd] at hc
          by_cases hn : n % 2 = 1
          · simp [hn] at hc; subst hc; exact .str hp hn
          · simp [hn] at hc
        | hor x => simp [hp, Held.odd] at hc
    | flt m e =>
      simp only [checkSeed, holdInt, Held.odd] at hc
      by_cases hn : m % 2 ^ (e + 1) = 2 ^ e
      · simp [hn] at hc; subst hc
        obtain ⟨k, hk⟩ := (flt_odd m e).1 hn
        exact .flt hk
      · simp [hn] at hc
    | other => simp [checkSeed, holdInt, Held.odd] at hc
  · intro hp
    cases hp with
    | int h => simp [checkSeed, holdInt, Held.odd, h]
    | integer h => simp [checkSeed, holdInt, Held.odd, h]
    | str h1 h => simp [checkSeed, holdInt, h1, Held.odd, h]
    | flt h => simp [checkSeed, holdInt, Held.odd, (flt_odd _ _).2 ⟨_, h⟩]

theorem first_nps {w : World} {r : Ref} (h : w.first Obj.isNps w.data = some r) : IsFirstNps w r := by
  obtain ⟨hm, o, ho, hp⟩ := first_some h
  obtain ⟨n, m, rfl⟩ := nps_cases hp
  rw [World.first, List.find?_eq_some_iff_append] at h
  obtain ⟨_, as, bs, hd, hn⟩ := h
  refine ⟨as, bs, n, m, hd, ho, ?_⟩
  intro x hx n' m' hc
  have := hn x hx
  simp [World.is, hc, Obj.isNps] at this

theorem nps_first {w : World} {r : Ref} (h : IsFirstNps w r) : w.first Obj.isNps w.data = some r := by
  obtain ⟨a, b, n, m, hd, hg, hn⟩ := h
  rw [World.first, List.find?_eq_some_iff_append]
  refine ⟨by simp [World.is, hg, Obj.isNps], a, b, hd, ?_⟩
  intro x hx
  have := hn x hx
  unfold World.is
  cases hx : w.get x with
  | none => rfl
  | some o =>
    cases o with
    | nps n m => exact absurd hx (this n m)
    | _ => rfl

theorem nps_congr {w w' : World} (hf : w'.first Obj.isNps w'.data = w.first Obj.isNps w.data)
    (hg : ∀ r n m, w.get r = some (.nps n m) → w'.get r = some (.nps n m)) : w'.nps = w.nps := by
  unfold World.nps
  rw [hf]
  split
  · rfl
  · rename_i r hr
    obtain ⟨_, o, ho, hq⟩ := first_some hr
    obtain ⟨n, m, rfl⟩ := nps_cases hq
    rw [ho, hg r n m ho]

theorem seed_congr {w w' : World} (hw : w.Wf) (hf : w'.first Obj.isRand w'.data = w.first Obj.isRand w.data)
    (hg : ∀ r o, w.get r = some o → o.isRand = true ∨ o.isROpt = true → w'.get r = some o) : w'.seed = w.seed := by
  unfold World.seed
  rw [hf]
  split
  · rfl
  · rename_i r hr
    obtain ⟨_, o, ho, hq⟩ := first_some hr
    have ho' := hg r o ho (.inl hq)
    have hopts : w'.opts r = w.opts r := by unfold World.opts; rw [ho, ho']
    have hopt := opts_wf hw r
    have hs : w'.first Obj.isSeed (w'.opts r) = w.first Obj.isSeed (w.opts r) := by
      rw [hopts]
      refine first_congr ?_
      intro x hx
      obtain ⟨ox, hox, hpx⟩ := is_get (hopt x hx)
      unfold World.is
      rw [hox, hg x ox hox (.inr hpx)]
    rw [hs]
    split
    · rfl
    · rename_i s hs'
      obtain ⟨_, os, hos, hps⟩ := first_some hs'
      obtain ⟨n, rfl⟩ := seed_cases hps
      rw [hos, hg s _ hos (.inr rfl)]

/-- The world after a successful assignment of the seed, in its three cases. -/
theorem seed_effect (w : World) (hw : w.Wf) {a : Arg} {h : Held} (hp : OddSeed a h) :
    let w' := (w.setSeed a).1
    (w.setSeed a).2 = none ∧
    ((∃ r s, w.first Obj.isRand w.data = some r ∧ w.first Obj.isSeed (w.opts r) = some s ∧
        w'.data = w.data ∧ w'.heap.length = w.heap.length ∧
        ∀ x, w'.get x = if x = s then some (.seed h) else w.get x) ∨
     (∃ r, w.first Obj.isRand w.data = some r ∧ w.first Obj.isSeed (w.opts r) = none ∧
        w'.data = w.data ∧ w'.heap.length = w.heap.length + 1 ∧
        ∀ x, w'.get x = if x = r then some (.rand (some (w.opts r ++ [w.heap.length]))) else
          if x = w.heap.length then some (.seed h) else w.get x) ∨
     (w.first Obj.isRand w.data = none ∧ w'.data = w.data ++ [w.heap.length + 1] ∧
        w'.heap.length = w.heap.length + 2 ∧
        ∀ x, w'.get x = if x = w.heap.length + 1 then some (.rand (some [w.heap.length])) else
          if x = w.heap.length then some (.seed h) else w.get x)) := by
  intro w'
  have hc := (checkSeed_iff a h).2 hp
  cases hr : w.first Obj.isRand w.data with
  | some r =>
    obtain ⟨_, o, ho, hq⟩ := first_some hr
    obtain ⟨l, rfl⟩ := rand_cases hq
    cases hs : w.first Obj.isSeed (w.opts r) with
    | some s =>
      have he := setSeed_found hc hr hs
      have hw' : w' = w.put s (.seed h) := congrArg Prod.fst he
      obtain ⟨_, os, hos, hps⟩ := first_some hs
      refine ⟨congrArg Prod.snd he, .inl ⟨r, s, rfl, hs, ?_, ?_, ?_⟩⟩
      · rw [hw']; rfl
      · rw [hw']; simp [World.put]
      · intro x; rw [hw', get_put _ _ _ _ (by rw [hos]; rfl)]
    | none =>
      have he := setSeed_opt hw hc hr hs
      have hne : r ≠ w.heap.length := fun e => by rw [e, get_fresh] at ho; cases ho
      have hg : (w.alloc (.seed h)).1.get r = some (.rand l) := by rw [get_alloc, if_neg hne]; exact ho
      have hw' : w' = (w.alloc (.seed h)).1.put r (.rand (some (w.opts r ++ [w.heap.length]))) := congrArg Prod.fst he
      refine ⟨congrArg Prod.snd he, .inr (.inl ⟨r, rfl, hs, ?_, ?_, ?_⟩)⟩
      · rw [hw']; rfl
      · rw [hw']; simp [World.put, World.alloc]
      · intro x; rw [hw', get_put _ _ _ _ (by rw [hg]; rfl), get_alloc]
  | none =>
    have he := setSeed_new hc hr
    have hw' : w' = ((w.alloc (.seed h)).1.alloc (.rand (some [w.heap.length]))).1.setData (w.data ++ [w.heap.length + 1]) := congrArg Prod.fst he
    have hlen : (w.alloc (.seed h)).1.heap.length = w.heap.length + 1 := by simp [World.alloc]
    refine ⟨congrArg Prod.snd he, .inr (.inr ⟨rfl, ?_, ?_, ?_⟩)⟩
    · rw [hw']
      refine setData_data ?_
      intro x hx
      rw [List.mem_append] at hx
      rcases hx with hx | hx
      · exact is_alloc_mono _ _ _ _ (is_alloc_mono _ _ _ _ (hw.data x hx))
      · simp at hx; subst hx; rw [← hlen, is_alloc_new]; rfl
    · rw [hw', setData_heap]; simp [World.alloc]
    · intro x; rw [hw', setData_get, get_alloc, hlen, get_alloc]

theorem nps_after_seed (w : World) (hw : w.Wf) (a : Arg) :
    (w.setSeed a).1.nps = w.nps ∧ npsCards (w.setSeed a).1 = npsCards w := by
  by_cases hp : ∃ h, OddSeed a h
  · obtain ⟨h, hp⟩ := hp
    obtain ⟨_, he⟩ := seed_effect w hw hp
    have hget : ∀ r n m, w.get r = some (.nps n m) → (w.setSeed a).1.get r = some (.nps n m) := by
      intro r n m hg
      rcases he with ⟨r', s, hr, hs, _, _, hx⟩ | ⟨r', hr, hs, _, _, hx⟩ | ⟨hr, _, _, hx⟩
      · obtain ⟨_, o, ho, hq⟩ := first_some hs
        rw [hx, if_neg]; exact hg
        intro e; subst e; rw [ho] at hg; cases hg; cases hq
      · obtain ⟨_, o, ho, hq⟩ := first_some hr
        rw [hx, if_neg, if_neg]; exact hg
        · intro e; subst e; rw [get_fresh] at hg; cases hg
        · intro e; subst e; rw [ho] at hg; cases hg; cases hq
      · have := get_lt hg
        rw [hx, if_neg (fun e => by subst e; exact absurd this (Nat.not_lt.2 (Nat.le_succ _))),
          if_neg (fun e => by subst e; exact absurd this (Nat.lt_irrefl _))]; exact hg
    have his : ∀ r, (w.get r).isSome → (w.setSeed a).1.is Obj.isNps r = w.is Obj.isNps r := by
      intro r hr
      cases hg : w.get r with
      | none => rw [hg] at hr; cases hr
      | some o =>
        cases hq : o.isNps with
        | true =>
          obtain ⟨n, m, rfl⟩ := nps_cases hq
          unfold World.is; rw [hg, hget r n m hg]
        | false =>
          have h2 : w.is Obj.isNps r = false := by unfold World.is; rw [hg]; exact hq
          rw [h2]
          unfold World.is
          rcases he with ⟨r', s, hr', hs, _, _, hx⟩ | ⟨r', hr', hs, _, _, hx⟩ | ⟨hr', _, _, hx⟩ <;> rw [hx]
          · by_cases e : r = s
            · rw [if_pos e]; rfl
            · rw [if_neg e, hg]; exact hq
          · by_cases e : r = r'
            · rw [if_pos e]; rfl
            · rw [if_neg e]
              by_cases e : r = w.heap.length
              · rw [if_pos e]; rfl
              · rw [if_neg e, hg]; exact hq
          · by_cases e : r = w.heap.length + 1
            · rw [if_pos e]; rfl
            · rw [if_neg e]
              by_cases e : r = w.heap.length
              · rw [if_pos e]; rfl
              · rw [if_neg e, hg]; exact hq
    have hdat : ∀ x ∈ w.data, (w.get x).isSome := by
      intro x hx
      obtain ⟨o, ho, _⟩ := is_get (hw.data x hx)
      rw [ho]; rfl
    have hcase : (w.setSeed a).1.data = w.data ∨
        ((w.setSeed a).1.data = w.data ++ [w.heap.length + 1] ∧ (w.setSeed a).1.is Obj.isNps (w.heap.length + 1) = false) := by
      rcases he with ⟨r', s, hr, hs, hd, _, hx⟩ | ⟨r', hr, hs, hd, _, hx⟩ | ⟨hr, hd, _, hx⟩
      · exact .inl hd
      · exact .inl hd
      · refine .inr ⟨hd, ?_⟩
        unfold World.is; rw [hx, if_pos rfl]; rfl
    constructor
    · refine nps_congr ?_ hget
      rcases hcase with hd | ⟨hd, hn⟩
      · rw [hd]; exact first_congr (fun x hx => his x (hdat x hx))
      · rw [hd, first_append_skip hn]; exact first_congr (fun x hx => his x (hdat x hx))
    · rw [npsCards_eq, npsCards_eq]
      rcases hcase with hd | ⟨hd, hn⟩
      · rw [hd]; exact List.filter_congr (fun x hx => his x (hdat x hx))
      · rw [hd, List.filter_append]
        simp only [List.filter_cons, hn, List.filter_nil]
        simp
        exact List.filter_congr (fun x hx => his x (hdat x hx))
  · obtain ⟨e, he⟩ : ∃ e, w.setSeed a = (w, some e) := setSeed_error (fun n hn => hp ⟨n, (checkSeed_iff a n).1 hn⟩)
    rw [he]; exact ⟨rfl, rfl⟩

theorem npsCards_after (w : World) (hw : w.Wf) (a : Arg) :
    (npsCards (w.setNps a).1).length = if (w.setNps a).2 = none then max 1 (npsCards w).length else (npsCards w).length := by
  by_cases hp : ∃ h, Positive a h
  · obtain ⟨h, hp⟩ := hp
    have hc := (checkNpp_iff a h).2 hp
    cases hf : w.first Obj.isNps w.data with
    | some r =>
      obtain ⟨hm, o, ho, hq⟩ := first_some hf
      obtain ⟨n, m, rfl⟩ := nps_cases hq
      rw [setNps_found hc hf ho]
      have : npsCards (w.put r (.nps h m)) = npsCards w := by
        rw [npsCards_eq, npsCards_eq]
        exact List.filter_congr (fun x _ => is_put w r (.nps h m) (.nps n m) Obj.isNps ho rfl x)
      simp only [this, if_true]
      have hpos : 0 < (npsCards w).length := by
        rw [npsCards_eq]
        refine List.length_pos_of_mem (a := r) ?_
        rw [List.mem_filter]
        refine ⟨hm, ?_⟩
        unfold World.is; rw [ho]; rfl
      omega
    | none =>
      rw [setNps_new hc hf]
      have hall : ∀ r ∈ w.data ++ [w.heap.length], (w.alloc (.nps h none)).1.is Obj.isData r = true := by
        intro r hr
        rw [List.mem_append] at hr
        rcases hr with hr | hr
        · exact is_alloc_mono _ _ _ _ (hw.data r hr)
        · simp at hr; subst hr; rw [is_alloc_new]; rfl
      have hnone : ∀ x ∈ w.data, w.is Obj.isNps x = false := by
        intro x hx
        have := List.find?_eq_none.1 hf x hx
        simpa using this
      have h0 : npsCards w = [] := by
        rw [npsCards_eq, List.filter_eq_nil_iff]
        intro x hx; rw [hnone x hx]; simp
      have h1 : (npsCards ((w.alloc (.nps h none)).1.setData (w.data ++ [w.heap.length]))) = [w.heap.length] := by
        rw [npsCards_eq, setData_data hall, List.filter_append]
        have : w.data.filter ((w.alloc (.nps h none)).1.is Obj.isNps) = [] := by
          rw [List.filter_eq_nil_iff]
          intro x hx
          obtain ⟨o, ho, _⟩ := is_get (hw.data x hx)
          rw [is_alloc _ _ _ _ (by rw [ho]; rfl), hnone x hx]; simp
        have hd : ((w.alloc (.nps h none)).1.setData (w.data ++ [w.heap.length])).is Obj.isNps = (w.alloc (.nps h none)).1.is Obj.isNps := rfl
        rw [hd, this]
        simp only [List.filter_cons, is_alloc_new, List.filter_nil]
        rfl
      simp only [h0, h1]; rfl
  · obtain ⟨e, he⟩ : ∃ e, w.setNps a = (w, some e) := setNps_error (fun n hn => hp ⟨n, (checkNpp_iff a n).1 hn⟩)
    rw [he]; simp

theorem is_rand {w : World} {x : Ref} : w.is Obj.isRand x = false ↔ ∀ l, w.get x ≠ some (.rand l) := by
  unfold World.is
  cases hx : w.get x with
  | none => simp
  | some o => cases o <;> simp [Obj.isRand]

theorem is_seed {w : World} {x : Ref} : w.is Obj.isSeed x = false ↔ ∀ n, w.get x ≠ some (.seed n) := by
  unfold World.is
  cases hx : w.get x with
  | none => simp
  | some o => cases o <;> simp [Obj.isSeed]

theorem first_rand {w : World} {r : Ref} : w.first Obj.isRand w.data = some r ↔ IsFirstRand w r := by
  constructor
  · intro h
    obtain ⟨hm, o, ho, hp⟩ := first_some h
    obtain ⟨l, rfl⟩ := rand_cases hp
    rw [World.first, List.find?_eq_some_iff_append] at h
    obtain ⟨_, as, bs, hd, hn⟩ := h
    exact ⟨as, bs, l, hd, ho, fun x hx => is_rand.1 (by simpa using hn x hx)⟩
  · rintro ⟨a, b, l, hd, hg, hn⟩
    rw [World.first, List.find?_eq_some_iff_append]
    exact ⟨by simp [World.is, hg, Obj.isRand], a, b, hd, fun x hx => by simpa using is_rand.2 (hn x hx)⟩

theorem opts_of {w : World} {r : Ref} (h : IsFirstRand w r) (l : List Ref) : w.opts r = l ↔ OptsOf w r l := by
  obtain ⟨_, _, l', _, hg, _⟩ := h
  unfold World.opts OptsOf
  rw [hg]
  cases l' with
  | none => simp
  | some l' => simp

theorem seed_slot {w : World} {s : Ref} : IsSeedSlot w s ↔ ∃ r, w.first Obj.isRand w.data = some r ∧ w.first Obj.isSeed (w.opts r) = some s := by
  constructor
  · rintro ⟨r, a, b, n, hr, ho, hg, hn⟩
    refine ⟨r, first_rand.2 hr, ?_⟩
    rw [(opts_of hr _).2 ho, World.first, List.find?_eq_some_iff_append]
    exact ⟨by simp [World.is, hg, Obj.isSeed], a, b, rfl, fun x hx => by simpa using is_seed.2 (hn x hx)⟩
  · rintro ⟨r, hr, hs⟩
    obtain ⟨hm, o, ho, hp⟩ := first_some hs
    obtain ⟨n, rfl⟩ := seed_cases hp
    rw [World.first, List.find?_eq_some_iff_append] at hs
    obtain ⟨_, as, bs, hd, hn⟩ := hs
    have hr' := first_rand.1 hr
    exact ⟨r, as, bs, n, hr', (opts_of hr' _).1 hd, ho, fun x hx => is_seed.1 (by simpa using hn x hx)⟩

theorem seed_after_nps (w : World) (hw : w.Wf) (a : Arg) : (w.setNps a).1.seed = w.seed := by
  by_cases hp : ∃ h, Positive a h
  · obtain ⟨h, hp⟩ := hp
    have hc := (checkNpp_iff a h).2 hp
    cases hf : w.first Obj.isNps w.data with
    | some r =>
      obtain ⟨hm, o, ho, hq⟩ := first_some hf
      obtain ⟨n, m, rfl⟩ := nps_cases hq
      rw [setNps_found hc hf ho]
      refine seed_congr hw ?_ ?_
      · exact first_congr (fun x _ => is_put w r (.nps h m) (.nps n m) Obj.isRand ho rfl x)
      · intro x o hx hk
        rw [get_put _ _ _ _ (by rw [ho]; rfl), if_neg]
        · exact hx
        · intro e; subst e; rw [ho] at hx; cases hx; rcases hk with hk | hk <;> cases hk
    | none =>
      rw [setNps_new hc hf]
      have hall : ∀ r ∈ w.data ++ [w.heap.length], (w.alloc (.nps h none)).1.is Obj.isData r = true := by
        intro r hr
        rw [List.mem_append] at hr
        rcases hr with hr | hr
        · exact is_alloc_mono _ _ _ _ (hw.data r hr)
        · simp at hr; subst hr; rw [is_alloc_new]; rfl
      refine seed_congr hw ?_ ?_
      · change World.first _ _ (World.data _) = _
        rw [setData_data hall, setData_first, first_append_skip (by rw [is_alloc_new]; rfl)]
        refine first_congr ?_
        intro x hx
        obtain ⟨o, ho, _⟩ := is_get (hw.data x hx)
        rw [is_alloc _ _ _ _ (by rw [ho]; rfl)]
      · intro x o hx hk
        change (World.setData _ _).get x = _
        rw [setData_get, get_alloc, if_neg]
        · exact hx
        · intro e; subst e; rw [get_fresh] at hx; cases hx
  · obtain ⟨e, he⟩ : ∃ e, w.setNps a = (w, some e) := setNps_error (fun n hn => hp ⟨n, (checkNpp_iff a n).1 hn⟩)
    rw [he]

end State
