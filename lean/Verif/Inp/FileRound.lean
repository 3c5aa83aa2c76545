import Verif.Inp.FileSections
/-! Helper lemmas: the sections of a printed file. -/
namespace Inp
open Py Types

/-- The text of a card: entries and spaces. -/
structure Cd where
  w0 : Str
  rest : List (Str × Str)
  e : Str

def Cd.text (c : Cd) : Str := c.w0 ++ (ib c.rest ++ c.e)
def Cd.ln (c : Cd) (n : Nat) : Ln := ⟨c.w0, c.rest, c.e, n⟩
def Cd.Ok (c : Cd) : Prop := Start c.w0 ∧ (∀ x ∈ c.rest, InG x.1 ∧ Entry x.2) ∧ Ig c.e
def Cd.flat (c : Cd) : Str := c.w0 ++ enc (c.rest.map (·.2))
def Cd.line (c : Cd) : Str := c.flat ++ pad c.e.isEmpty

/-- The lines of a block of cards. -/
def block : List Cd → List Ln
  | [] => []
  | [c] => [c.ln 1]
  | c :: d :: cs => c.ln 0 :: block (d :: cs)

theorem block_ne {cs : List Cd} (h : cs ≠ []) : block cs ≠ [] := by
  cases cs with
  | nil => exact absurd rfl h
  | cons c cs => cases cs <;> simp [block]

theorem block_ok (cs : List Cd) (h : ∀ c ∈ cs, c.Ok) : ∀ l ∈ block cs, Ln.Ok InG Ig l := by
  induction cs with
  | nil => simp [block]
  | cons c cs ih =>
    have hc := h c (by simp)
    cases cs with
    | nil => intro l hl; simp only [block, List.mem_singleton] at hl; subst hl; exact hc
    | cons d ds =>
      intro l hl
      rcases List.mem_cons.1 (show l ∈ c.ln 0 :: block (d :: ds) from hl) with rfl | hl
      · exact hc
      · exact ih (fun x hx => h x (List.mem_cons_of_mem _ hx)) l hl

theorem Cd.ln_text (c : Cd) (n : Nat) : (c.ln n).text = c.text ++ nls (n + 1) := by
  simp [Ln.text, Cd.ln, Cd.text]

theorem block_text (cs : List Cd) (h : cs ≠ []) : ft (block cs) = join ['\n'] (cs.map Cd.text) ++ ['\n', '\n'] := by
  induction cs with
  | nil => exact absurd rfl h
  | cons c cs ih =>
    cases cs with
    | nil => simp only [block, ft, List.flatMap_cons, List.flatMap_nil, List.append_nil, Cd.ln_text]; rfl
    | cons d ds =>
      rw [block, ft_cons, ih (by simp), Cd.ln_text,
        show (c :: d :: ds).map Cd.text = c.text :: (d :: ds).map Cd.text from rfl,
        join_cons _ c.text ((d :: ds).map Cd.text) (by simp)]
      simp [nls]

theorem keyText_ln (c : Cd) (n : Nat) : keyText (c.ln n).key = c.line ++ nls (n + 1) := by
  simp [keyText, keyLine, Ln.key, Cd.ln, Cd.line, Cd.flat]

theorem block_keys (cs : List Cd) (h : cs ≠ []) :
    ((block cs).map Ln.key).flatMap keyText = join ['\n'] (cs.map Cd.line) ++ ['\n', '\n'] := by
  induction cs with
  | nil => exact absurd rfl h
  | cons c cs ih =>
    cases cs with
    | nil =>
      simp only [block, List.map_cons, List.map_nil, List.flatMap_cons, List.flatMap_nil, List.append_nil, keyText_ln]; rfl
    | cons d ds =>
      rw [block, List.map_cons, List.flatMap_cons, ih (by simp), keyText_ln,
        show (c :: d :: ds).map Cd.line = c.line :: (d :: ds).map Cd.line from rfl,
        join_cons _ c.line ((d :: ds).map Cd.line) (by simp)]
      simp [nls]

theorem bump_keys (cs : List Cd) (h : cs ≠ []) :
    ((bump (block cs)).map Ln.key).flatMap keyText = join ['\n'] (cs.map Cd.line) ++ ['\n', '\n', '\n'] := by
  induction cs with
  | nil => exact absurd rfl h
  | cons c cs ih =>
    cases cs with
    | nil =>
      show ([c.ln 2].map Ln.key).flatMap keyText = _
      simp only [List.map_cons, List.map_nil, List.flatMap_cons, List.flatMap_nil, List.append_nil, keyText_ln]; rfl
    | cons d ds =>
      have e : bump (block (c :: d :: ds)) = c.ln 0 :: bump (block (d :: ds)) := by
        rw [block]
        cases hb : block (d :: ds) with
        | nil => exact absurd hb (block_ne (by simp))
        | cons => rfl
      rw [e, List.map_cons, List.flatMap_cons, ih (by simp), keyText_ln,
        show (c :: d :: ds).map Cd.line = c.line :: (d :: ds).map Cd.line from rfl,
        join_cons _ c.line ((d :: ds).map Cd.line) (by simp)]
      simp [nls]

theorem bump_append (a b : List Ln) (h : b ≠ []) : bump (a ++ b) = a ++ bump b := by
  induction a with
  | nil => rfl
  | cons x a ih =>
    rw [List.cons_append, List.cons_append, ← ih]
    cases hab : a ++ b with
    | nil => simp at hab; exact absurd hab.2 h
    | cons => rfl

/-- The lines of a block as `Inp.from_mcnp` finds them: the space at the end of the last one is gone. -/
def linesS : List Cd → List Str
  | [] => []
  | [c] => [c.flat]
  | c :: d :: cs => c.line :: linesS (d :: cs)

theorem join_linesS (cs : List Cd) (h : cs ≠ []) :
    ∃ b, join ['\n'] (cs.map Cd.line) = join ['\n'] (linesS cs) ++ pad b := by
  induction cs with
  | nil => exact absurd rfl h
  | cons c cs ih =>
    cases cs with
    | nil => exact ⟨c.e.isEmpty, rfl⟩
    | cons d ds =>
      obtain ⟨b, e⟩ := ih (by simp)
      refine ⟨b, ?_⟩
      rw [List.map_cons, join_cons _ _ _ (by simp), e, linesS, join_cons]
      · simp
      · cases ds <;> simp [linesS]

theorem Cd.Ok.flat_nl {c : Cd} (h : c.Ok) : '\n' ∉ c.flat := by
  intro hc
  rcases List.mem_append.1 hc with hc | hc
  · exact h.1.1.ne_nl _ hc rfl
  · rcases enc_mem hc with e | ⟨w, hw, hc⟩
    · exact absurd e (by decide)
    · obtain ⟨x, hx, rfl⟩ := List.mem_map.1 hw
      exact (h.2.1 x hx).2.ne_nl _ hc rfl

theorem pad_nl (b : Bool) : '\n' ∉ pad b := by cases b <;> decide

theorem Cd.Ok.line_nl {c : Cd} (h : c.Ok) : '\n' ∉ c.line := by
  intro hc
  rcases List.mem_append.1 hc with hc | hc
  · exact h.flat_nl hc
  · exact pad_nl _ hc

theorem linesS_nl (cs : List Cd) (h : ∀ c ∈ cs, c.Ok) : ∀ l ∈ linesS cs, '\n' ∉ l := by
  induction cs with
  | nil => simp [linesS]
  | cons c cs ih =>
    have hc := h c (by simp)
    cases cs with
    | nil => intro l hl; simp only [linesS, List.mem_singleton] at hl; subst hl; exact hc.flat_nl
    | cons d ds =>
      intro l hl
      rcases List.mem_cons.1 (show l ∈ c.line :: linesS (d :: ds) from hl) with rfl | hl
      · exact hc.line_nl
      · exact ih (fun x hx => h x (List.mem_cons_of_mem _ hx)) l hl

theorem flat_head {c : Cd} (h : c.Ok) (t : Str) : ∃ x xs, c.flat ++ t = x :: xs ∧ isSpace x = false := by
  obtain ⟨x, xs, e, hs, -⟩ := h.1.1.stop (enc (c.rest.map (·.2)) ++ t)
  exact ⟨x, xs, by rw [← e]; simp [Cd.flat], hs⟩

theorem last_ns {w : Str} (h : NoSpace w) (hne : w ≠ []) (a : Str) : ∀ c ∈ (a ++ w).getLast?, isSpace c = false := by
  intro c hc
  rw [List.getLast?_append] at hc
  cases hw : w.getLast? with
  | none => rw [List.getLast?_eq_none_iff] at hw; exact absurd hw hne
  | some d =>
    rw [hw] at hc
    have : d = c := by simpa using hc
    subst this
    exact h d (List.mem_of_getLast? hw)

theorem enc_snoc (ws : List Str) (w : Str) : enc (ws ++ [w]) = enc ws ++ (' ' :: w) := by
  simp [enc]

theorem flat_last {c : Cd} (h : c.Ok) (a : Str) : ∀ x ∈ (a ++ c.flat).getLast?, isSpace x = false := by
  rcases List.eq_nil_or_concat c.rest with e | ⟨r, x, e⟩
  · have : c.flat = c.w0 := by simp [Cd.flat, e]
    rw [this]
    exact last_ns h.1.1.sp h.1.1.ne a
  · have hx := (h.2.1 x (by rw [e]; simp)).2
    have : a ++ c.flat = (a ++ c.w0 ++ enc (r.map (·.2)) ++ [' ']) ++ x.2 := by
      simp [Cd.flat, e, enc_snoc]
    rw [this]
    exact last_ns hx.sp hx.ne _

theorem linesS_last (cs : List Cd) (hne : cs ≠ []) (h : ∀ c ∈ cs, c.Ok) (a : Str) :
    ∀ x ∈ (a ++ join ['\n'] (linesS cs)).getLast?, isSpace x = false := by
  induction cs generalizing a with
  | nil => exact absurd rfl hne
  | cons c cs ih =>
    cases cs with
    | nil => exact flat_last (h c (by simp)) a
    | cons d ds =>
      have := ih (by simp) (fun x hx => h x (List.mem_cons_of_mem _ hx)) (a ++ (c.line ++ ['\n']))
      rw [linesS, join_cons _ _ _ (by cases ds <;> simp [linesS])]
      simpa using this

theorem linesS_head (cs : List Cd) (hne : cs ≠ []) (h : ∀ c ∈ cs, c.Ok) (t : Str) :
    ∃ x xs, join ['\n'] (linesS cs) ++ t = x :: xs ∧ isSpace x = false := by
  cases cs with
  | nil => exact absurd rfl hne
  | cons c cs =>
    cases cs with
    | nil => exact flat_head (h c (by simp)) t
    | cons d ds =>
      rw [linesS, join_cons _ _ _ (by cases ds <;> simp [linesS])]
      simp only [Cd.line, List.append_assoc]
      exact flat_head (h c (by simp)) _

theorem noNN_append (a b : Str) (ha : '\n' ∉ a) (hb : NoNN b) : NoNN (a ++ b) := by
  induction a with
  | nil => exact hb
  | cons c cs ih =>
    have hc : c ≠ '\n' := fun e => ha (by simp [e])
    have := ih (fun hc => ha (by simp [hc]))
    rw [List.cons_append]
    cases hr : cs ++ b with
    | nil => exact hc
    | cons d ds => exact ⟨fun h => hc h.1, by rw [← hr]; exact this⟩

theorem noNN_nl (b : Str) (hne : ∀ c cs, b = c :: cs → c ≠ '\n') (h0 : b ≠ []) (hb : NoNN b) : NoNN ('\n' :: b) := by
  cases b with
  | nil => exact absurd rfl h0
  | cons c cs => exact ⟨fun h => hne c cs rfl h.2, hb⟩

theorem noNN_lines (cs : List Cd) (hne : cs ≠ []) (h : ∀ c ∈ cs, c.Ok) (b : Bool) :
    NoNN (join ['\n'] (linesS cs) ++ pad b) := by
  induction cs with
  | nil => exact absurd rfl hne
  | cons c cs ih =>
    have hc := h c (by simp)
    cases cs with
    | nil =>
      exact noNN_append _ _ hc.flat_nl (by cases b; exact (by decide : (' ' : Char) ≠ '\n'); exact trivial)
    | cons d ds =>
      have hd := fun x hx => h x (List.mem_cons_of_mem _ hx)
      rw [linesS, join_cons _ _ _ (by cases ds <;> simp [linesS])]
      simp only [List.append_assoc]
      refine noNN_append _ _ hc.line_nl ?_
      obtain ⟨x, xs, e, hx⟩ := linesS_head (d :: ds) (by simp) hd (pad b)
      refine noNN_nl _ ?_ (by rw [e]; simp) (ih (by simp) hd)
      intro c' cs' e' hn
      rw [e] at e'; cases e'; subst hn
      exact absurd hx (by decide)

theorem pad_blank (b : Bool) : ∀ x ∈ pad b, isSpace x = true := by cases b <;> decide

theorem blockLines_eq (cs : List Cd) (hne : cs ≠ []) (h : ∀ c ∈ cs, c.Ok) (b : Bool) (k : Nat) (m : List (Nat × Str)) (n : Nat)
    (hm : cap m n = some (join ['\n'] (linesS cs) ++ pad b ++ nls k)) : blockLines m n = linesS cs := by
  rw [blockLines, hm]
  simp only [Option.getD_some]
  have hs := strip_pad (a := []) (b := pad b ++ nls k) (m := join ['\n'] (linesS cs)) (by intro x hx; cases hx) (by
      intro x hx
      rcases List.mem_append.1 hx with hx | hx
      · exact pad_blank b x hx
      · rw [(List.mem_replicate.1 hx).2]; decide)
    (by
      obtain ⟨x, xs, e, hx⟩ := linesS_head cs hne h []
      rw [List.append_nil] at e
      rw [e]; simpa using hx)
    (by simpa using linesS_last cs hne h [])
    (by
      obtain ⟨x, xs, e, hx⟩ := linesS_head cs hne h []
      rw [List.append_nil] at e
      rw [e]; simp)
  rw [List.append_assoc]
  rw [List.nil_append] at hs
  rw [hs, splitC_join _ _ (by cases cs with | nil => exact absurd rfl hne | cons c cs => cases cs <;> simp [linesS]) (linesS_nl cs h)]


/-- Trailing text: lines of entries. -/
structure Tail where
  ls : List Ln
  w : Str
  rest : List (Str × Str)

def Tail.text (t : Tail) : Str := ft t.ls ++ (t.w ++ ib t.rest)

/-- Entries are separated by single blanks and lines end in entries. -/
def Tail.Ok (t : Tail) : Prop :=
  (∀ l ∈ t.ls, Ln.Ok One (· = []) l) ∧ Start t.w ∧ ∀ x ∈ t.rest, One x.1 ∧ Entry x.2

theorem one_inG {g : Str} (h : One g) : InG g := by rw [h]; exact ⟨.sp .nil, by simp⟩

def otherText : Option Tail → Str
  | none => []
  | some t => t.text

theorem sections_print (t0 : Str) (ts : List Str) (cells surfs data : List Cd) (o : Option Tail)
    (ht : Start t0) (hts : ∀ w ∈ ts, Entry w) (hm : ¬ IsMessage (t0 ++ enc ts))
    (hc : cells ≠ [] ∧ ∀ c ∈ cells, c.Ok) (hs : surfs ≠ [] ∧ ∀ c ∈ surfs, c.Ok) (hd : data ≠ [] ∧ ∀ c ∈ data, c.Ok)
    (ho : ∀ t, o = some t → t.Ok) :
    sections ((t0 ++ enc ts) ++ '\n' :: (join ['\n'] (cells.map Cd.text) ++ '\n' :: '\n' ::
      (join ['\n'] (surfs.map Cd.text) ++ '\n' :: '\n' :: (join ['\n'] (data.map Cd.text) ++ '\n' :: '\n' :: otherText o)))) =
    .ok ⟨none, t0 ++ enc ts, linesS cells, linesS surfs, linesS data, o.map Tail.text⟩ := by
  have tn : '\n' ∉ t0 ++ enc ts := by
    intro hc
    rcases List.mem_append.1 hc with hc | hc
    · exact ht.1.ne_nl _ hc rfl
    · rcases enc_mem hc with e | ⟨w, hw, hc⟩
      · exact absurd e (by decide)
      · exact (hts w hw).ne_nl _ hc rfl
  have tne : t0 ++ enc ts ≠ [] := by simp [ht.1.ne]
  let T : Ln := ⟨t0, ts.map (fun w => ([' '], w)), [], 0⟩
  have hT : Ln.Ok InG Ig T := by
    refine ⟨ht, ?_, .nil⟩
    intro x hx
    obtain ⟨w, hw, rfl⟩ := List.mem_map.1 hx
    exact ⟨one_inG rfl, hts w hw⟩
  have hib : ib (ts.map (fun w => ([' '], w))) = enc ts := by
    rw [ib_one]
    · simp [Function.comp_def]
    · intro x hx
      obtain ⟨w, hw, rfl⟩ := List.mem_map.1 hx
      rfl
  have Tt : T.text = t0 ++ (enc ts ++ ['\n']) := by simp only [Ln.text, T, hib, List.nil_append]; rfl
  have Tk : keyText T.key = t0 ++ (enc ts ++ ['\n']) := by
    simp [keyText, keyLine, Ln.key, T, Function.comp_def, pad, nls]
  obtain ⟨b1, j1⟩ := join_linesS cells hc.1
  obtain ⟨b2, j2⟩ := join_linesS surfs hs.1
  obtain ⟨b3, j3⟩ := join_linesS data hd.1
  have NE : ∀ cs : List Cd, cs ≠ [] → (∀ c ∈ cs, c.Ok) → ∀ b, join ['\n'] (linesS cs) ++ pad b ≠ [] := by
    intro cs h1 h2 b
    obtain ⟨x, xs, e, -⟩ := linesS_head cs h1 h2 (pad b)
    rw [e]; simp
  cases o with
  | none =>
    let ls := T :: (block cells ++ (block surfs ++ block data))
    have hls : ∀ l ∈ ls, Ln.Ok InG Ig l := by
      intro l hl
      rcases List.mem_cons.1 hl with rfl | hl
      · exact hT
      · rcases List.mem_append.1 hl with hl | hl
        · exact block_ok _ hc.2 l hl
        · rcases List.mem_append.1 hl with hl | hl
          · exact block_ok _ hs.2 l hl
          · exact block_ok _ hd.2 l hl
    have hp := filePreprocess_keys ls hls none trivial (.inl (by simp [ls]))
    have e1 : ft ls ++ tl none = (t0 ++ enc ts) ++ '\n' :: (join ['\n'] (cells.map Cd.text) ++ '\n' :: '\n' ::
      (join ['\n'] (surfs.map Cd.text) ++ '\n' :: '\n' :: (join ['\n'] (data.map Cd.text) ++ '\n' :: '\n' :: otherText none))) := by
      simp only [ls, ft_cons, ft_append, block_text _ hc.1, block_text _ hs.1, block_text _ hd.1, Tt, tl, otherText]
      simp
    have e2 : ((closeF ls none).map Ln.key).flatMap keyText = ([] ++ ((t0 ++ enc ts) ++ '\n' :: (join ['\n'] (linesS cells) ++ pad b1 ++
        '\n' :: '\n' :: (join ['\n'] (linesS surfs) ++ pad b2 ++ '\n' :: '\n' :: join ['\n'] (linesS data))))) ++
          (pad b3 ++ ['\n', '\n', '\n']) := by
      have : closeF ls none = T :: (block cells ++ (block surfs ++ bump (block data))) := by
        show bump ls = _
        have e : ls = (T :: (block cells ++ block surfs)) ++ block data := by simp [ls]
        rw [e, bump_append _ _ (block_ne hd.1)]; simp
      rw [this]
      simp only [List.map_cons, List.map_append, List.flatMap_cons, List.flatMap_append, block_keys _ hc.1, block_keys _ hs.1,
        bump_keys _ hd.1, Tk, j1, j2, j3]
      simp
    rw [e2, strip_pad (by intro x hx; cases hx) (by
      intro x hx
      rcases List.mem_append.1 hx with hx | hx
      · exact pad_blank b3 x hx
      · simp only [List.mem_cons, List.not_mem_nil, or_false, or_self] at hx; subst hx; decide) (by
      obtain ⟨x, xs, e, hx, -⟩ := ht.1.stop (enc ts)
      rw [e]; simpa using hx) (by
      have := linesS_last data hd.1 hd.2 ((t0 ++ enc ts) ++ '\n' :: (join ['\n'] (linesS cells) ++ pad b1 ++
        '\n' :: '\n' :: (join ['\n'] (linesS surfs) ++ pad b2 ++ ['\n', '\n'])))
      simpa using this) (by simp), e1] at hp
    obtain ⟨m, hmm, c1, c2, c3, c4, c5, c6⟩ := file_match (t0 ++ enc ts) (join ['\n'] (linesS cells) ++ pad b1)
      (join ['\n'] (linesS surfs) ++ pad b2) (join ['\n'] (linesS data)) [] tne tn hm
      ⟨NE _ hc.1 hc.2 _, noNN_lines _ hc.1 hc.2 _⟩ ⟨NE _ hs.1 hs.2 _, noNN_lines _ hs.1 hs.2 _⟩
      (by
        have := noNN_lines data hd.1 hd.2 true
        have h2 := NE data hd.1 hd.2 true
        simp only [pad, cond_true, List.append_nil] at this h2
        exact ⟨h2, this⟩)
    simp only [if_true, List.append_nil] at hmm c5 c6
    rw [sections, hp, hmm]
    simp only [c1, c2, c6, Option.getD_some, textOrNone]
    rw [blockLines_eq cells hc.1 hc.2 b1 2 m 3 c3, blockLines_eq surfs hs.1 hs.2 b2 2 m 4 c4,
      blockLines_eq data hd.1 hd.2 true 0 m 5 (by rw [c5]; simp [pad, nls])]
    rfl
  | some t =>
    have ho := ho t rfl
    let ls := T :: (block cells ++ (block surfs ++ (block data ++ t.ls)))
    have hls : ∀ l ∈ ls, Ln.Ok InG Ig l := by
      intro l hl
      rcases List.mem_cons.1 hl with rfl | hl
      · exact hT
      · rcases List.mem_append.1 hl with hl | hl
        · exact block_ok _ hc.2 l hl
        · rcases List.mem_append.1 hl with hl | hl
          · exact block_ok _ hs.2 l hl
          · rcases List.mem_append.1 hl with hl | hl
            · exact block_ok _ hd.2 l hl
            · obtain ⟨h1, h2, h3⟩ := ho.1 l hl
              exact ⟨h1, fun x hx => ⟨one_inG (h2 x hx).1, (h2 x hx).2⟩, by rw [h3]; exact .nil⟩
    have hp := filePreprocess_keys ls hls (some (t.w, t.rest))
      ⟨ho.2.1, fun x hx => ⟨one_inG (ho.2.2 x hx).1, (ho.2.2 x hx).2⟩⟩ (.inl (by simp [ls]))
    have e1 : ft ls ++ tl (some (t.w, t.rest)) = (t0 ++ enc ts) ++ '\n' :: (join ['\n'] (cells.map Cd.text) ++ '\n' :: '\n' ::
      (join ['\n'] (surfs.map Cd.text) ++ '\n' :: '\n' :: (join ['\n'] (data.map Cd.text) ++ '\n' :: '\n' :: otherText (some t)))) := by
      simp only [ls, ft_cons, ft_append, block_text _ hc.1, block_text _ hs.1, block_text _ hd.1, Tt, tl, otherText, Tail.text]
      simp
    have lst : ∀ a : Str, ∀ x ∈ (a ++ (t.w ++ ib t.rest)).getLast?, isSpace x = false := by
      intro a
      have hok : Cd.Ok ⟨t.w, t.rest, []⟩ :=
        ⟨ho.2.1, fun x hx => ⟨one_inG (ho.2.2 x hx).1, (ho.2.2 x hx).2⟩, .nil⟩
      have := flat_last hok a
      rw [ib_one _ (fun x hx => (ho.2.2 x hx).1)]
      exact this
    have e2 : ((closeF ls (some (t.w, t.rest))).map Ln.key).flatMap keyText = ([] ++ ((t0 ++ enc ts) ++ '\n' :: (join ['\n'] (linesS cells) ++ pad b1 ++
        '\n' :: '\n' :: (join ['\n'] (linesS surfs) ++ pad b2 ++ '\n' :: '\n' :: (join ['\n'] (linesS data) ++ pad b3 ++ '\n' :: '\n' ::
          t.text))))) ++ ['\n'] := by
      have e : closeF ls (some (t.w, t.rest)) = T :: (block cells ++ (block surfs ++ (block data ++ (t.ls ++ [⟨t.w, t.rest, [], 0⟩])))) := by
        simp [closeF, ls]
      have k : (t.ls.map Ln.key).flatMap keyText = ft t.ls := by
        rw [ft_key]
        intro l hl
        obtain ⟨h1, h2, h3⟩ := ho.1 l hl
        exact ⟨h1, h2, 0, by rw [h3]; rfl⟩
      have k2 : keyText (Ln.key ⟨t.w, t.rest, [], 0⟩) = t.w ++ (ib t.rest ++ ['\n']) := by
        rw [ib_one _ (fun x hx => (ho.2.2 x hx).1)]
        simp [keyText, keyLine, Ln.key, pad, nls]
      rw [e]
      simp only [List.map_cons, List.map_append, List.flatMap_cons, List.flatMap_append, block_keys _ hc.1, block_keys _ hs.1,
        block_keys _ hd.1, Tk, j1, j2, j3, k, k2, List.map_nil, List.flatMap_nil, Tail.text]
      simp
    have tne2 : t.text ≠ [] := by simp [Tail.text, ho.2.1.1.ne]
    rw [e2, strip_pad (by intro x hx; cases hx) (by
      intro x hx
      revert x; decide) (by
      obtain ⟨x, xs, e, hx, -⟩ := ht.1.stop (enc ts)
      rw [e]; simpa using hx) (by
      have := lst ((t0 ++ enc ts) ++ '\n' :: (join ['\n'] (linesS cells) ++ pad b1 ++
        '\n' :: '\n' :: (join ['\n'] (linesS surfs) ++ pad b2 ++ '\n' :: '\n' :: (join ['\n'] (linesS data) ++ pad b3 ++ '\n' :: '\n' ::
          ft t.ls))))
      simpa [Tail.text] using this) (by simp), e1] at hp
    obtain ⟨m, hmm, c1, c2, c3, c4, c5, c6⟩ := file_match (t0 ++ enc ts) (join ['\n'] (linesS cells) ++ pad b1)
      (join ['\n'] (linesS surfs) ++ pad b2) (join ['\n'] (linesS data) ++ pad b3) t.text tne tn hm
      ⟨NE _ hc.1 hc.2 _, noNN_lines _ hc.1 hc.2 _⟩ ⟨NE _ hs.1 hs.2 _, noNN_lines _ hs.1 hs.2 _⟩
      ⟨NE _ hd.1 hd.2 _, noNN_lines _ hd.1 hd.2 _⟩
    simp only [tne2, if_false] at hmm c5 c6
    rw [sections, hp, hmm]
    simp only [c1, c2, c6, Option.getD_some]
    rw [blockLines_eq cells hc.1 hc.2 b1 2 m 3 c3, blockLines_eq surfs hs.1 hs.2 b2 2 m 4 c4,
      blockLines_eq data hd.1 hd.2 b3 2 m 5 c5]
    have : textOrNone (some t.text) = some t.text := by
      cases h : t.text with
      | nil => exact absurd h tne2
      | cons => rfl
    rw [this]; rfl

end Inp
