import Verif.Ptrac.Line
import Verif.Py.RegexSub
import Verif.Types.ScalarLemmas
/-! Helper lemmas: fixed-width fields. -/
namespace Ptrac
open Py Types

/-! ### Patterns -/

theorem run_rep_dot {α : Type} (f s prev : Str) (caps) (k : St → Option α) (hf : '\n' ∉ f) :
    run (Re.rep f.length .dot) ⟨prev, f ++ s, caps⟩ k = k ⟨f.reverse ++ prev, s, caps⟩ := by
  induction f generalizing prev with
  | nil => rfl
  | cons c cs ih =>
    have hc : (c != '\n') = true := by
      simp only [List.mem_cons, not_or] at hf
      simpa using fun e => hf.1 e.symm
    rw [List.length_cons, Re.rep, run_seq, List.cons_append, Re.dot, run_cls_cons, if_pos hc]
    have := ih (c :: prev) (fun h => hf (List.mem_cons_of_mem _ h))
    rw [Re.dot] at this
    rw [this]; simp

theorem run_rep_short {α : Type} (n : Nat) (s prev : Str) (caps) (k : St → Option α)
    (h : s.length < n) : run (Re.rep n .dot) ⟨prev, s, caps⟩ k = none := by
  induction n generalizing s prev with
  | zero => simp at h
  | succ n ih =>
    rw [Re.rep, run_seq]
    cases s with
    | nil => rfl
    | cons c cs =>
      rw [Re.dot, run_cls_cons]
      split
      · exact ih _ _ (by simpa using h)
      · rfl

theorem run_rep_nl {α : Type} (n : Nat) (f s prev : Str) (caps) (k : St → Option α)
    (h : f.length < n) : run (Re.rep n .dot) ⟨prev, f ++ '\n' :: s, caps⟩ k = none := by
  induction n generalizing f prev with
  | zero => simp at h
  | succ n ih =>
    rw [Re.rep, run_seq]
    cases f with
    | nil => rfl
    | cons c cs =>
      rw [List.cons_append, Re.dot, run_cls_cons]
      split
      · exact ih _ _ (by simpa using h)
      · rfl

/-- The captures of fields numbered from `n`. -/
def capsFrom : Nat → List Str → List (Nat × Str) → List (Nat × Str)
  | _, [], c => c
  | n, f :: fs, c => capsFrom (n + 1) fs ((n, f) :: c)

theorem cap_skip {n m : Nat} (h : n ≠ m) (f : Str) (c) : cap ((n, f) :: c) m = cap c m := by
  unfold cap
  rw [List.lookup_cons]
  have : (m == n) = false := by simpa using fun e => h e.symm
  rw [this]

theorem cap_hd (n : Nat) (f : Str) (c) : cap ((n, f) :: c) n = some f := by
  simp [cap]

theorem cap_capsFrom_lt (n : Nat) (fs : List Str) (c) (k : Nat) (h : k < n) : cap (capsFrom n fs c) k = cap c k := by
  induction fs generalizing n c with
  | nil => rfl
  | cons f fs ih =>
    rw [capsFrom, ih _ _ (by omega), cap_skip (by omega)]

theorem cap_capsFrom (n : Nat) (fs : List Str) (c) (i : Nat) (h : i < fs.length) :
    cap (capsFrom n fs c) (n + i) = some fs[i] := by
  induction fs generalizing n c i with
  | nil => simp at h
  | cons f fs ih =>
    cases i with
    | zero => rw [capsFrom, cap_capsFrom_lt _ _ _ _ (by omega)]; simp [cap]
    | succ i =>
      rw [capsFrom]
      have := ih (n + 1) ((n, f) :: c) i (by simpa using h)
      rw [show n + (i + 1) = n + 1 + i by omega, this]; rfl

theorem run_fields {α : Type} (n : Nat) (fs : List Str) (s prev : Str) (caps) (k : St → Option α)
    (hf : ∀ f ∈ fs, '\n' ∉ f) :
    run (fieldsRe n (fs.map (·.length))) ⟨prev, fs.flatten ++ s, caps⟩ k =
      k ⟨fs.flatten.reverse ++ prev, s, capsFrom n fs caps⟩ := by
  induction fs generalizing n prev caps with
  | nil => rfl
  | cons f fs ih =>
    rw [List.map_cons, fieldsRe, run_seq, run_grp]
    simp only
    rw [List.flatten_cons, List.append_assoc, run_rep_dot _ _ _ _ _ (hf f (by simp))]
    simp only
    have e : (f ++ (fs.flatten ++ s)).take ((f ++ (fs.flatten ++ s)).length - (fs.flatten ++ s).length) = f :=
      take_consumed f _
    rw [e, ih _ _ _ (fun x hx => hf x (List.mem_cons_of_mem _ hx))]
    simp [capsFrom]

/-- A line made of fields of the right widths is split into them. -/
theorem line_match (fs : List Str) (hf : ∀ f ∈ fs, '\n' ∉ f) (ws : List Nat) (hw : ws = fs.map (·.length)) :
    reMatch (lineRe ws) (' ' :: fs.flatten) =
      some ((0, ' ' :: fs.flatten) :: capsFrom 1 fs []) := by
  subst hw
  unfold reMatch lineRe
  rw [run_seq, run_bos, if_pos rfl, run_seq, Re.space, run_cls_cons, if_pos (by decide), run_seq]
  have := run_fields 1 fs [] [' '] [] (fun st => run .eos st fun st =>
    some ((0, (' ' :: fs.flatten).take ((' ' :: fs.flatten).length - st.rest.length)) :: st.caps)) hf
  rw [List.append_nil] at this
  rw [this, run_eos, if_pos rfl]
  simp only [List.length_nil, Nat.sub_zero, List.take_length]

/-- And a line of another length is not. -/
theorem line_only (ws : List Nat) (s : Str) (m) (h : reMatch (lineRe ws) s = some m) : s.length = ws.sum + 1 := by
  have rep : ∀ n a b, Step (Re.rep n .dot) a b → a.rest.length = b.rest.length + n := by
    intro n
    induction n with
    | zero => intro a b h; rw [Re.rep, step_eps] at h; subst h; rfl
    | succ n ih =>
      intro a b h
      rw [Re.rep, step_seq] at h
      obtain ⟨c, h1, h2⟩ := h
      rw [Re.dot, step_cls] at h1
      obtain ⟨x, xs, -, hx, rfl⟩ := h1
      have := ih _ _ h2
      rw [hx]
      simp at this ⊢
      omega
  have fields : ∀ ws n a b, Step (fieldsRe n ws) a b → a.rest.length = b.rest.length + ws.sum := by
    intro ws
    induction ws with
    | nil => intro n a b h; rw [fieldsRe, step_eps] at h; subst h; rfl
    | cons w ws ih =>
      intro n a b h
      rw [fieldsRe, step_seq] at h
      obtain ⟨c, h1, h2⟩ := h
      obtain ⟨d, h3, rfl⟩ := step_grp.1 h1
      have e1 := rep _ _ _ h3
      have e2 := ih _ _ _ h2
      simp at e2 ⊢
      omega
  obtain ⟨st', hs, -⟩ := reMatch_some h
  unfold lineRe at hs
  rw [step_seq] at hs
  obtain ⟨a, h1, hs⟩ := hs
  obtain ⟨rfl, -⟩ := step_bos.1 h1
  rw [step_seq] at hs
  obtain ⟨b, h2, hs⟩ := hs
  rw [Re.space, step_cls] at h2
  obtain ⟨x, xs, -, hx, rfl⟩ := h2
  rw [step_seq] at hs
  obtain ⟨c, h3, hs⟩ := hs
  obtain ⟨rfl, h4⟩ := step_eos.1 hs
  have := fields _ _ _ _ h3
  simp only at hx this
  rw [hx, List.length_cons, this, h4]; simp

/-! ### Padding -/

theorem strip_blanks (k : Nat) (s : Str) : strip (List.replicate k ' ' ++ s) = strip s := by
  induction k with
  | zero => rfl
  | succ k ih => rw [List.replicate_succ, List.cons_append, strip_space_cons, ih]

theorem chainOk_blanks (k : Nat) (s : Str) (h : chainOk s) : chainOk (List.replicate k ' ' ++ s) := by
  induction k with
  | zero => exact h
  | succ k ih =>
    rw [List.replicate_succ, List.cons_append]
    cases hx : List.replicate k ' ' ++ s with
    | nil => trivial
    | cons c cs =>
      rw [hx] at ih
      exact ⟨fun h => absurd h (by decide), ih⟩

/-- Characters of a padded numeral. -/
theorem pad_mem {k : Nat} {s : Str} {c : Char} (h : c ∈ List.replicate k ' ' ++ s) : c = ' ' ∨ c ∈ s := by
  rcases List.mem_append.1 h with h | h
  · exact .inl (List.eq_of_mem_replicate h)
  · exact .inr h

theorem horiz_pad (k : Nat) (s : Str) (hne : s ≠ []) (hch : ∀ c ∈ s, numCh c = true) :
    horizParse (List.replicate k ' ' ++ s) = .error .types := by
  apply horizParse_reject
  intro w c e
  obtain ⟨t, d, rfl⟩ : ∃ t d, s = t ++ [d] := ⟨s.dropLast, s.getLast hne, (List.dropLast_concat_getLast hne).symm⟩
  rw [← List.append_assoc] at e
  have := List.append_inj' e rfl
  simp only [List.cons.injEq, and_true] at this
  rw [← this.2]
  exact numCh_hEnd (hch d (by simp))

theorem numText_pad (k : Nat) (s : Str) (hch : ∀ c ∈ s, numCh c = true) (hc : chainOk s)
    (hh : ∃ c cs, s = c :: cs ∧ c ≠ 'e') : numText (List.replicate k ' ' ++ s) = .ok (List.replicate k ' ' ++ s) := by
  unfold numText
  simp only [bareExp_id _ (chainOk_blanks k s hc).noBare, dsub_id _ (fun c (h : c ∈ List.replicate k ' ' ++ s) => by
    rcases pad_mem h with rfl | h
    · decide
    · exact numCh_noD (hch c h))]
  cases k with
  | zero =>
    obtain ⟨c, cs, rfl, hce⟩ := hh
    simp [hce]
  | succ k => rw [List.replicate_succ]; simp

theorem decParse_pad (k : Nat) (s : Str) : decParse (List.replicate k ' ' ++ s) = decParse s := by
  unfold decParse
  rw [strip_blanks]

/-- A padded numeral reads as the numeral. -/
theorem intParse_pad (k : Nat) (s : Str) (hch : ∀ c ∈ s, numCh c = true) (hc : chainOk s)
    (hh : ∃ c cs, s = c :: cs ∧ c ≠ 'e') : intParse (List.replicate k ' ' ++ s) = intParse s := by
  have hne : s ≠ [] := by obtain ⟨c, cs, rfl, -⟩ := hh; simp
  have h0 := horiz_pad 0 s hne hch
  have t0 := numText_pad 0 s hch hc hh
  simp only [List.replicate_zero, List.nil_append] at h0 t0
  simp only [intParse, horiz_pad k s hne hch, numText_pad k s hch hc hh, h0, t0, decParse_pad]

theorem realParse_pad (k : Nat) (s : Str) (hch : ∀ c ∈ s, numCh c = true) (hc : chainOk s)
    (hh : ∃ c cs, s = c :: cs ∧ c ≠ 'e') : realParse (List.replicate k ' ' ++ s) = realParse s := by
  have hne : s ≠ [] := by obtain ⟨c, cs, rfl, -⟩ := hh; simp
  have h0 := horiz_pad 0 s hne hch
  have t0 := numText_pad 0 s hch hc hh
  simp only [List.replicate_zero, List.nil_append] at h0 t0
  simp only [realParse, horiz_pad k s hne hch, numText_pad k s hch hc hh, h0, t0, decParse_pad]

/-- Numerals that are not rewritten. -/
structure Plain (s : Str) : Prop where
  ch : ∀ c ∈ s, numCh c = true
  chain : chainOk s
  head : ∃ c cs, s = c :: cs ∧ c ≠ 'e'

theorem Plain.nl {s : Str} (h : Plain s) : '\n' ∉ s := fun hc => absurd (h.ch _ hc) (by decide)

theorem plain_mant (g ip fp) (h : MantOk ip fp) : Plain (mantText g ip fp) where
  ch := fun c hc => (h.mem hc).2
  chain := h.chain
  head := by
    obtain ⟨c, cs, e, h1, _⟩ := mant_head (g := g) h []
    exact ⟨c, cs, by simpa using e, h1⟩

theorem plain_sci (g ip fp letter n ds) (h : MantOk ip fp) (hl : letter = 'e' ∨ letter = 'E') (he : ExpOk ds) :
    Plain (mantText g ip fp ++ letter :: sgnChar n :: ds) where
  ch := by
    intro c hc
    rcases List.mem_append.1 hc with hc | hc
    · exact (h.mem hc).2
    · exact tail_numCh hl n he c hc
  chain := chainOk_append h.chain (chain_tail hl n he) (by intro y r hy; cases hy; exact (letter_head hl).2.2)
  head := by
    obtain ⟨c, cs, e, h1, _⟩ := mant_head (g := g) h (letter :: sgnChar n :: ds)
    exact ⟨c, cs, e, h1⟩

theorem plain_int (n : Int) : Plain (intStr n) := by
  have hm : ∀ k, MantOk (natStr k) none := fun k =>
    ⟨natStr_digits k, (by intro c hc; cases hc), .inl (natStr_ne_nil k)⟩
  cases n with
  | ofNat k =>
    have := plain_mant .none _ _ (hm k)
    exact (by simpa [mantText, Sg.text, fracText] using this : Plain (natStr k))
  | negSucc k =>
    have := plain_mant .minus _ _ (hm (k + 1))
    exact (by simpa [mantText, Sg.text, fracText] using this : Plain ('-' :: natStr (k + 1)))

theorem plain_dec (d : Dec) : Plain d.str := by
  rcases Dec.str_shape d with ⟨g, ip, fp, h, hs, hv⟩ | ⟨g, ip, fp, n, ds, h, he, hs, hv⟩
  · rw [hs]; exact plain_mant g ip fp h
  · rw [hs]; exact plain_sci g ip fp 'E' n ds h (.inr rfl) he

theorem rjust_length {w : Nat} {s : Str} (h : s.length ≤ w) : (rjust w s).length = w := by
  simp [rjust]; omega

theorem rjust_nl {w : Nat} {s : Str} (h : '\n' ∉ s) : '\n' ∉ rjust w s := by
  intro hc
  rcases pad_mem hc with e | hc
  · exact absurd e (by decide)
  · exact h hc

theorem strip_rjust (w : Nat) (s : Str) (h : NoSpace s) : strip (rjust w s) = s := by
  rw [rjust, strip_blanks, strip_noSpace s h]

end Ptrac
