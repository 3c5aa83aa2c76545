import Verif.Inp.CardSpec
import Verif.Inp.CardUnion
import Verif.Inp.RoundTrip
/-!
# Lemmas on whole card texts
-/
namespace Inp
open Py Types

theorem std_plain {c : Cls} {h fs} (hst : c.std h fs = true) : c.plain h fs = true := by
  simp only [Cls.std, Bool.and_eq_true] at hst
  exact hst.1.1.1.1.1.1.1

theorem spaced_prep {g0 w0 : Str} {l : List (Gap × Str)} {g1 : Str} (h : Spaced g0 w0 l g1) :
    cardPreprocess (g0 ++ (w0 ++ (body l ++ g1))) = (w0 ++ enc (entries l), []) ∧
    preprocess (g0 ++ (w0 ++ (body l ++ g1))) = w0 ++ enc (entries l) ∧ Words (w0 :: entries l) := by
  obtain ⟨h0, hw0, hl, h1, hlow, hn, ha⟩ := h
  have hr : ∀ w ∈ l.map (·.2), w ≠ [] ∧ NoSpace w := by
    intro w hw
    obtain ⟨x, hx, rfl⟩ := List.mem_map.1 hw
    exact ⟨(hl x hx).2.ne, (hl x hx).2.sp⟩
  have hw : Words (w0 :: entries l) := by
    intro w hw
    rcases List.mem_cons.1 hw with rfl | hw
    · exact ⟨hw0.sp, hw0.ne⟩
    · obtain ⟨u, hu, hwu⟩ := List.mem_flatMap.1 hw
      unfold expandOne at hwu
      split at hwu
      · rename_i n k hc
        have : w = k := List.eq_of_mem_replicate hwu
        subst this
        have hk : w ∈ kws := counted_letter hc
        have : ∀ w ∈ kws, (∀ c ∈ w, isSpace c = false) ∧ w ≠ [] := by decide
        exact this w hk
      · simp only [List.mem_singleton] at hwu
        subst hwu
        exact ⟨(hr w hu).2, (hr w hu).1⟩
  have hpre := read_spaced g0 w0 l g1 h0 hw0 hl h1
  rw [short_read w0 (l.map (·.2)) hw0.sp hr (by
      intro w hw n k hc
      obtain ⟨x, hx, rfl⟩ := List.mem_map.1 hw
      exact hn x hx (n, k) hc) (by
      intro w hw
      obtain ⟨x, hx, rfl⟩ := List.mem_map.1 hw
      exact hlow x hx) ha] at hpre
  have hd : '$' ∉ g0 ++ (w0 ++ (body l ++ g1)) := by
    simp only [List.mem_append, not_or]
    exact ⟨h0.chars, hw0.dl, body_chars l (fun x hx => ⟨(hl x hx).1, (hl x hx).2.dl⟩), h1.chars⟩
  rw [cardPreprocess_free _ hd] at hpre ⊢
  have e := (Prod.mk.inj hpre).1
  rw [e]
  exact ⟨rfl, rfl, hw⟩

/-- `readW` and `accepts` against the pattern. -/
theorem plain_match (c : Cls) (hs : c.isPlain = true) (hd : Str) (ws : List Str) (hw : Words (hd :: ws)) :
    (match reMatch c.re (hd ++ enc ws) with | none => .error .inp | some m => c.build m) = c.readW hd ws ∧
    (∀ m, reMatch c.re (hd ++ enc ws) = some m → cap m 0 = some (hd ++ enc ws)) ∧
    ((reMatch c.re (hd ++ enc ws)).isSome = c.accepts hd ws) := by
  unfold Cls.isPlain at hs
  cases hsh : c.shape with
  | other p => rw [hsh] at hs; cases hs
  | flat h fs =>
    rw [hsh] at hs
    obtain ⟨e1, e2⟩ := flat_read c h fs hsh hs hd ws hw
    have e3 : c.readW hd ws = readWords c h fs hd ws := by simp [Cls.readW, hsh]
    rw [e3]
    refine ⟨e1, e2, ?_⟩
    simp only [Cls.plain, Bool.and_eq_true, List.all_eq_true, beq_iff_eq, Bool.not_eq_true'] at hs
    obtain ⟨⟨⟨⟨⟨hok, hu⟩, ha⟩, hlen⟩, hmany⟩, hof⟩ := hs
    have hre : c.re = anchored ((Shape.flat h fs).pat.re 1) := by simp [Cls.re, Cls.pat, hsh]
    obtain ⟨m1, m2⟩ := flat_match h fs hok hu ha hd ws hw
    rw [hre]
    simp only [Cls.accepts, hsh]
    cases hr : readHead h hd with
    | none => rw [m1 (.inl hr)]; rfl
    | some hv =>
      cases hf : assign (fs.map Field.spec) ws with
      | none => rw [m1 (.inr hf)]; rfl
      | some vs =>
        obtain ⟨m, hm, -⟩ := m2 hv vs hr hf
        rw [hm]; rfl

/-- Entries separated by single blanks. -/
def single (ws : List Str) : List (Gap × Str) := ws.map (fun w => (.ws [' '], w))

theorem single_words (ws : List Str) : (single ws).map (·.2) = ws := by
  induction ws with
  | nil => rfl
  | cons w ws ih => simp only [single, List.map_cons, List.cons.injEq, true_and] at ih ⊢; exact ih

theorem single_body (ws : List Str) : body (single ws) = enc ws := by
  induction ws with
  | nil => rfl
  | cons w ws ih =>
    show [' '] ++ (w ++ body (single ws)) = _
    rw [ih, enc_cons]; rfl

theorem stable_expand : ∀ ws : List Str, (∀ w ∈ ws, Stable w) → ws.flatMap expandOne = ws
  | [], _ => rfl
  | w :: ws, h => by
    rw [List.flatMap_cons, stable_expand ws (fun v hv => h v (by simp [hv]))]
    simp [expandOne, (h w (by simp)).cnt]

theorem stable_adj : ∀ ws : List Str, (∀ w ∈ ws, Stable w) → NoAdj ws
  | [], _ => trivial
  | [_], _ => trivial
  | a :: b :: l, h => ⟨fun _ _ => ⟨(h a (by simp)).cnt, (h b (by simp)).cnt⟩, stable_adj (b :: l) (fun v hv => h v (by simp [hv]))⟩

theorem spaced_single (hd : Str) (ws : List Str) (g1 : Str) (hh : Entry hd) (hw : ∀ w ∈ ws, Stable w) (h1 : Ws g1) :
    Spaced [] hd (single ws) g1 ∧ entries (single ws) = ws := by
  have hm : ∀ x ∈ single ws, x.1 = .ws [' '] ∧ Stable x.2 := by
    intro x hx
    obtain ⟨w, hw', rfl⟩ := List.mem_map.1 hx
    exact ⟨rfl, hw w hw'⟩
  refine ⟨⟨.nil, hh, ?_, h1, fun x hx => (hm x hx).2.low, ?_, by rw [single_words]; exact stable_adj ws hw⟩, ?_⟩
  · intro x hx
    refine ⟨?_, (hm x hx).2.entry⟩
    rw [(hm x hx).1]; exact ⟨.sp .nil, by simp⟩
  · intro x hx p hp
    rw [(hm x hx).2.cnt] at hp; cases hp
  · rw [entries, single_words]; exact stable_expand ws hw

/-- The text `hd ` followed by entries joined by blanks. -/
theorem spaced_text (hd : Str) (ws : List Str) (hh : Entry hd) (hw : ∀ w ∈ ws, Stable w) :
    ∃ l g1, Spaced [] hd l g1 ∧ hd ++ ' ' :: join [' '] ws = [] ++ (hd ++ (body l ++ g1)) ∧ entries l = ws := by
  cases ws with
  | nil =>
    obtain ⟨h1, h2⟩ := spaced_single hd [] [' '] hh hw (.sp .nil)
    exact ⟨_, _, h1, rfl, h2⟩
  | cons w ws =>
    obtain ⟨h1, h2⟩ := spaced_single hd (w :: ws) [] hh hw .nil
    refine ⟨_, _, h1, ?_, h2⟩
    rw [single_body, join_enc, enc_cons]; simp

/-- The printed object. -/
theorem obj_str (i : Info) (vs : List Val) : (Val.obj i vs).str = objStr i (Val.parts vs) := rfl

theorem readHead_length {h : Head} {s vs} (hr : readHead h s = some vs) :
    vs.length = (if h.pre = .no then 0 else 1) + (if h.suf = .no then 0 else 1) + (if h.des = .no then 0 else 1) := by
  unfold readHead at hr
  split at hr
  · cases hr
  · rename_i t hk
    split at hr
    · cases hr
    · rename_i x u hs
      cases hd : readDes h.des u with
      | none => rw [hd] at hr; cases hr
      | some d =>
        rw [hd] at hr
        simp only [Option.map_some, Option.some.injEq] at hr
        subst hr
        have h1 : (readPre h.pre s).1.length = if h.pre = .no then 0 else 1 := by
          unfold readPre
          split
          · rfl
          · split
            · rfl
            · split <;> rfl
        have h2 : x.length = if h.suf = .no then 0 else 1 := by
          unfold readSuf at hs
          split at hs
          · rename_i e; cases hs; simp [e]
          · rename_i e
            split at hs
            · cases hs
            · cases hs; simp [e]
          · rename_i e; cases hs; simp [e]
        have h3 : d.length = if h.des = .no then 0 else 1 := by
          unfold readDes at hd
          split at hd <;> simp_all
          all_goals (subst hd; rfl)
        simp only [List.length_append, h1, h2, h3]

end Inp
