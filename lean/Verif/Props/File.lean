import Verif.Inp.FilePrint
import Verif.Inp.TableCards
import Verif.Inp.CardSpec
/-! # Input files (C35) -/
set_option maxRecDepth 20000
namespace Props
open Py Types Inp

/-! ## Specification -/

/-- `ls` are the lines of the cards with words `cards`: the words of each card that are not empty, one
blank apart, with at most one blank at the end. -/
inductive LinesOf : List Str → List (List Str) → Prop
  | nil : LinesOf [] []
  | cons {l ls ws cards} (p : Str) (hp : p = [] ∨ p = [' ']) (h : l = join [' '] (filled ws) ++ p) :
      LinesOf ls cards → LinesOf (l :: ls) (ws :: cards)

/-- The words of a line of free text. -/
def TextWords : List Str → Prop
  | [] => False
  | w0 :: ws => Start w0 ∧ ∀ w ∈ ws, Entry w

/-- Free text after the data block: lines of words, each followed by some number of empty lines, and a
last line. -/
def trailing (ls : List (List Str × Nat)) (l : List Str) : Str :=
  ls.flatMap (fun x => join [' '] x.1 ++ List.replicate (x.2 + 1) '\n') ++ join [' '] l

/-! ## Helper lemmas -/

theorem linesOf_linesS (cs : List Cd) (cards : List (List Str))
    (h : cs.map (fun c => c.w0 :: c.rest.map (·.2)) = cards.map filled) : LinesOf (linesS cs) cards := by
  have key : ∀ (c : Cd) (ws : List Str), c.w0 :: c.rest.map (·.2) = filled ws → c.flat = join [' '] (filled ws) := by
    intro c ws e
    rw [← e, join_enc]; rfl
  induction cs generalizing cards with
  | nil =>
    cases cards with
    | nil => exact .nil
    | cons => simp at h
  | cons c cs ih =>
    cases cards with
    | nil => simp at h
    | cons ws cards =>
      simp only [List.map_cons, List.cons.injEq] at h
      have k := key c ws (by rw [← h.1])
      cases cs with
      | nil =>
        cases cards with
        | cons => simp at h
        | nil => exact .cons [] (.inl rfl) (by rw [List.append_nil]; exact k) .nil
      | cons d ds =>
        refine .cons (pad c.e.isEmpty) ?_ (by rw [← k]; rfl) (ih _ h.2)
        cases c.e.isEmpty
        · exact .inr rfl
        · exact .inl rfl

theorem text_words (l : List Str) (h : TextWords l) : ∃ w ws, l = w :: ws ∧ Start w ∧ (∀ x ∈ ws, Entry x) ∧
    join [' '] l = w ++ enc ws := by
  cases l with
  | nil => exact h.elim
  | cons w ws => exact ⟨w, ws, rfl, h.1, h.2, join_enc w ws⟩

theorem ib_ones (ws : List Str) : ib (ws.map (fun w => ([' '], w))) = enc ws := by
  rw [ib_one]
  · simp [Function.comp_def]
  · intro x hx
    obtain ⟨w, -, rfl⟩ := List.mem_map.1 hx
    rfl

theorem nls_replicate (n : Nat) : nls n = List.replicate n '\n' := by
  induction n with
  | zero => rfl
  | succ n ih => rw [List.replicate_succ, ← ih]; rfl

theorem trailing_tail (ls : List (List Str × Nat)) (l : List Str) (h : ∀ x ∈ ls, TextWords x.1)
    (hl : TextWords l) : ∃ t : Tail, t.Ok ∧ t.text = trailing ls l := by
  obtain ⟨w, ws, rfl, h1, h2, h3⟩ := text_words l hl
  have : ∃ ns : List Ln, (∀ n ∈ ns, Start n.w0 ∧ (∀ x ∈ n.rest, One x.1 ∧ Entry x.2) ∧ n.e = []) ∧
      ft ns = ls.flatMap (fun x => join [' '] x.1 ++ List.replicate (x.2 + 1) '\n') := by
    clear hl h1 h2 h3
    induction ls with
    | nil => exact ⟨[], by simp, rfl⟩
    | cons x ls ih =>
      obtain ⟨ns, k1, k2⟩ := ih (fun y hy => h y (List.mem_cons_of_mem _ hy))
      obtain ⟨v, vs, e, g1, g2, g3⟩ := text_words x.1 (h x (by simp))
      refine ⟨⟨v, vs.map (fun w => ([' '], w)), [], x.2⟩ :: ns, ?_, ?_⟩
      · intro n hn
        rcases List.mem_cons.1 hn with rfl | hn
        · refine ⟨g1, ?_, rfl⟩
          intro y hy
          obtain ⟨u, hu, rfl⟩ := List.mem_map.1 hy
          exact ⟨rfl, g2 u hu⟩
        · exact k1 n hn
      · rw [ft_cons, k2, List.flatMap_cons, g3]
        simp [Ln.text, ib_ones, nls_replicate, List.replicate_succ]
  obtain ⟨ns, k1, k2⟩ := this
  refine ⟨⟨ns, w, ws.map (fun w => ([' '], w))⟩, ⟨k1, h1, ?_⟩, ?_⟩
  · intro y hy
    obtain ⟨u, hu, rfl⟩ := List.mem_map.1 hy
    exact ⟨rfl, h2 u hu⟩
  · rw [Tail.text, k2, ib_ones, trailing, h3]

/-! ## C35 -/

/-- Trailing text of a file: none, or free text. -/
inductive Trailing : Option Str → Prop
  | none : Trailing none
  | some (ls l) (h : ∀ x ∈ ls, TextWords x.1) (hl : TextWords l) : Trailing (some (trailing ls l))

/-- **C35, every title, card and trailing text made of words:** reading a printed file finds the same
title, one line per cell, surface and data card with the words of that card, and the same trailing
text, and each line reads as the printed card does.  Missing: files with a message, titles and
trailing text in which blanks, `=`, `&`, `$` or a leading `#` matter, and files without cells,
surfaces or data. -/
theorem C35_sections_partial (title : List Str) (cells surfaces data : List (List Str)) (other : Option Str)
    (ht : TextWords title) (hm : ¬ IsMessage (join [' '] title))
    (hc : cells ≠ [] ∧ ∀ ws ∈ cells, CardWords ws) (hs : surfaces ≠ [] ∧ ∀ ws ∈ surfaces, CardWords ws)
    (hd : data ≠ [] ∧ ∀ ws ∈ data, CardWords ws) (ho : Trailing other) :
    ∃ C S D, sections (filePrint printWords printWords printWords
        ⟨none, join [' '] title, cells, surfaces, data, other⟩) = .ok ⟨none, join [' '] title, C, S, D, other⟩ ∧
      (LinesOf C cells ∧ LinesOf S surfaces ∧ LinesOf D data) ∧
      C.map cardPreprocess = cells.map (fun ws => cardPreprocess (printWords ws)) ∧
      S.map cardPreprocess = surfaces.map (fun ws => cardPreprocess (printWords ws)) ∧
      D.map cardPreprocess = data.map (fun ws => cardPreprocess (printWords ws)) := by
  obtain ⟨t0, ts, rfl, h1, h2, h3⟩ := text_words title ht
  obtain ⟨cs, c1, c2, c3⟩ := cards_gaps cells hc.2
  obtain ⟨ss, s1, s2, s3⟩ := cards_gaps surfaces hs.2
  obtain ⟨ds, d1, d2, d3⟩ := cards_gaps data hd.2
  obtain ⟨o, o1, o2, o3⟩ : ∃ o : Option Tail, (∀ t ∈ o, t.Ok) ∧ o.map Tail.text = other ∧ otherText o = other.getD [] := by
    cases ho with
    | none => exact ⟨none, by simp, rfl, rfl⟩
    | some ls l h hl =>
      obtain ⟨t, k1, k2⟩ := trailing_tail ls l h hl
      exact ⟨some t, by simpa using k1, by simp [k2], by simp [otherText, k2]⟩
  have ne : ∀ {a : List Cd} {b : List (List Str)}, a.map Cd.text = b.map printWords → b ≠ [] → a ≠ [] := by
    intro a b e hb ha
    subst ha
    cases b with
    | nil => exact hb rfl
    | cons => simp at e
  have main := sections_print t0 ts cs ss ds o h1 h2 (by rw [← h3]; exact hm) ⟨ne c2 hc.1, c1⟩ ⟨ne s2 hs.1, s1⟩
    ⟨ne d2 hd.1, d1⟩ o1
  have pre : ∀ {a : List Cd} {b : List (List Str)}, (∀ c ∈ a, c.Ok) → a.map Cd.text = b.map printWords →
      (linesS a).map cardPreprocess = b.map (fun ws => cardPreprocess (printWords ws)) := by
    intro a b h e
    rw [linesS_pre a h]
    have := congrArg (List.map cardPreprocess) e
    simpa [List.map_map, Function.comp_def] using this
  refine ⟨linesS cs, linesS ss, linesS ds, ?_, ⟨linesOf_linesS _ _ c3, linesOf_linesS _ _ s3, linesOf_linesS _ _ d3⟩,
    pre c1 c2, pre s1 s2, pre d1 d2⟩
  have e : filePrint printWords printWords printWords
      ⟨none, join [' '] (t0 :: ts), cells, surfaces, data, other⟩ = (t0 ++ enc ts) ++ '\n' :: (join ['\n'] (cs.map Cd.text) ++ '\n' :: '\n' ::
      (join ['\n'] (ss.map Cd.text) ++ '\n' :: '\n' :: (join ['\n'] (ds.map Cd.text) ++ '\n' :: '\n' :: otherText o))) := by
    rw [c2, s2, d2, o3, ← h3]
    simp [filePrint, textOrNone]
  rw [e, main, o2, h3]

theorem readAll_pre {α : Type} (rd : Str → Res α) (pr : α → Str) (xs : List α) (ls : List Str)
    (hf : ∀ a b, cardPreprocess a = cardPreprocess b → rd a = rd b)
    (hr : ∀ x ∈ xs, rd (pr x) = .ok x) (hl : ls.map cardPreprocess = xs.map (fun x => cardPreprocess (pr x))) :
    readAll rd ls = .ok xs := by
  induction xs generalizing ls with
  | nil =>
    cases ls with
    | nil => rfl
    | cons => simp at hl
  | cons x xs ih =>
    cases ls with
    | nil => simp at hl
    | cons l ls =>
      simp only [List.map_cons, List.cons.injEq] at hl
      rw [readAll, hf l (pr x) hl.1, hr x (by simp), ih ls (fun y hy => hr y (List.mem_cons_of_mem _ hy)) hl.2]
      rfl

/-- A card of the kind `rd` reads and `pr` prints that survives on its own. -/
def Survives {α : Type} (rd : Str → Res α) (pr : α → Str) (x : α) : Prop :=
  rd (pr x) = .ok x ∧ ∃ ws, CardWords ws ∧ pr x = printWords ws

/-- A reader that starts with the preprocessing of cards, as `Card.from_mcnp` does. -/
def ReadsCards {α : Type} (rd : Str → Res α) : Prop :=
  ∀ a b, cardPreprocess a = cardPreprocess b → rd a = rd b

/-- **C35, files without a message:** a file whose cards each survive printing and reading on their own,
and whose title and trailing text are made of words, is read back from its printed form as it was.
Missing: as for `C35_sections_partial`. -/
theorem C35_file_partial {α β γ : Type} (rc : Str → Res α) (rs : Str → Res β) (rd : Str → Res γ)
    (pc : α → Str) (ps : β → Str) (pd : γ → Str) (f : InpFile α β γ)
    (hrc : ReadsCards rc) (hrs : ReadsCards rs) (hrd : ReadsCards rd)
    (hmsg : f.message = none) (title : List Str) (ht : TextWords title) (hft : f.title = join [' '] title)
    (hm : ¬ IsMessage f.title) (hlen : f.title.length < 80)
    (hc : f.cells ≠ [] ∧ ∀ x ∈ f.cells, Survives rc pc x)
    (hs : f.surfaces ≠ [] ∧ ∀ x ∈ f.surfaces, Survives rs ps x)
    (hd : f.data ≠ [] ∧ ∀ x ∈ f.data, Survives rd pd x) (ho : Trailing f.other) :
    fileRead rc rs rd (filePrint pc ps pd f) = .ok f := by
  have words : ∀ {δ : Type} (r : Str → Res δ) (p : δ → Str) (xs : List δ), (∀ x ∈ xs, Survives r p x) →
      ∃ cards : List (List Str), (∀ ws ∈ cards, CardWords ws) ∧ xs.map p = cards.map printWords := by
    intro δ r p xs h
    induction xs with
    | nil => exact ⟨[], by simp, rfl⟩
    | cons x xs ih =>
      obtain ⟨cards, k1, k2⟩ := ih (fun y hy => h y (List.mem_cons_of_mem _ hy))
      obtain ⟨-, ws, g1, g2⟩ := h x (by simp)
      refine ⟨ws :: cards, ?_, by simp [k2, g2]⟩
      intro y hy
      rcases List.mem_cons.1 hy with rfl | hy
      · exact g1
      · exact k1 y hy
  obtain ⟨msg, ttl, cells, surfaces, data, other⟩ := f
  simp only at hmsg hft hm hlen hc hs hd ho
  subst hmsg hft
  obtain ⟨cw, c1, c2⟩ := words rc pc cells hc.2
  obtain ⟨sw, s1, s2⟩ := words rs ps surfaces hs.2
  obtain ⟨dw, d1, d2⟩ := words rd pd data hd.2
  have ne : ∀ {δ : Type} {p : δ → Str} {xs : List δ} {b : List (List Str)}, xs.map p = b.map printWords → xs ≠ [] → b ≠ [] := by
    intro δ p xs b e hx hb
    subst hb
    cases xs with
    | nil => exact hx rfl
    | cons => simp at e
  obtain ⟨C, S, D, e, -, eC, eS, eD⟩ := C35_sections_partial title cw sw dw other ht hm ⟨ne c2 hc.1, c1⟩ ⟨ne s2 hs.1, s1⟩
    ⟨ne d2 hd.1, d1⟩ ho
  have tr : ∀ {δ : Type} {p : δ → Str} {xs : List δ} {b : List (List Str)}, xs.map p = b.map printWords →
      b.map (fun ws => cardPreprocess (printWords ws)) = xs.map (fun x => cardPreprocess (p x)) := by
    intro δ p xs b e
    have := congrArg (List.map cardPreprocess) e
    simpa [List.map_map, Function.comp_def] using this.symm
  have rC := readAll_pre rc pc cells C hrc (fun x hx => (hc.2 x hx).1) (eC.trans (tr c2))
  have rS := readAll_pre rs ps surfaces S hrs (fun x hx => (hs.2 x hx).1) (eS.trans (tr s2))
  have rD := readAll_pre rd pd data D hrd (fun x hx => (hd.2 x hx).1) (eD.trans (tr d2))
  have pe : filePrint pc ps pd ⟨none, join [' '] title, cells, surfaces, data, other⟩ =
      filePrint printWords printWords printWords ⟨none, join [' '] title, cw, sw, dw, other⟩ := by
    simp [filePrint, c2, s2, d2]
  simp only [fileRead, pe, e, bind, Except.bind, rC, rS, rD, hlen, if_true]

/-- The reader of a card class, without the comments. -/
def plainRead (c : Cls) (s : Str) : Res Val := (cardParse c s).map (·.1)

theorem plainRead_pre (c : Cls) : ReadsCards (plainRead c) := by
  intro a b h
  simp only [plainRead, cardParse, h]

/-- A card that reads back as itself, given by its text. -/
def exCard (c : Cls) (s : Str) : Val := (match plainRead c s with | .ok v => v | .error _ => .none)

theorem exCell1 : Survives (plainRead Tab.Cell) Val.str (exCard Tab.Cell c!"1 0 -1 imp:n=1") :=
  ⟨by decide +kernel, [c!"1", c!"0", [], c!"-1", c!"imp:n", c!"1"], ⟨⟨by decide, by decide⟩, by decide, by decide⟩, by decide +kernel⟩
theorem exCell2 : Survives (plainRead Tab.Cell) Val.str (exCard Tab.Cell c!"2 5 -1.5 1 imp:n=0") :=
  ⟨by decide +kernel, [c!"2", c!"5", c!"-1.5", c!"1", c!"imp:n", c!"0"], ⟨⟨by decide, by decide⟩, by decide, by decide⟩, by decide +kernel⟩
theorem exSurf : Survives (plainRead Tab.Surface) Val.str (exCard Tab.Surface c!"1 so 5") :=
  ⟨by decide +kernel, [c!"1", [], c!"so", c!"5"], ⟨⟨by decide, by decide⟩, by decide, by decide⟩, by decide +kernel⟩
theorem exNps : Survives (plainRead Tab.Nps) Val.str (exCard Tab.Nps c!"nps 5 6") :=
  ⟨by decide +kernel, [c!"nps", c!"5", c!"6"], ⟨⟨by decide, by decide⟩, by decide, by decide⟩, by decide +kernel⟩

/-- A file with two cells, a surface, a data card and trailing text meets the hypotheses. -/
example (c1 c2 s d : Val) (h1 : c1 = exCard Tab.Cell c!"1 0 -1 imp:n=1") (h2 : c2 = exCard Tab.Cell c!"2 5 -1.5 1 imp:n=0")
    (h3 : s = exCard Tab.Surface c!"1 so 5") (h4 : d = exCard Tab.Nps c!"nps 5 6") :
    fileRead (plainRead Tab.Cell) (plainRead Tab.Surface) (plainRead Tab.Nps)
    (filePrint Val.str Val.str Val.str ⟨none, c!"a bare sphere", [c1, c2], [s], [d], some c!"notes after\n\nthe input"⟩) =
    .ok ⟨none, c!"a bare sphere", [c1, c2], [s], [d], some c!"notes after\n\nthe input"⟩ := by
  have k1 : Survives (plainRead Tab.Cell) Val.str c1 := by rw [h1]; exact exCell1
  have k2 : Survives (plainRead Tab.Cell) Val.str c2 := by rw [h2]; exact exCell2
  have k3 : Survives (plainRead Tab.Surface) Val.str s := by rw [h3]; exact exSurf
  have k4 : Survives (plainRead Tab.Nps) Val.str d := by rw [h4]; exact exNps
  clear h1 h2 h3 h4
  refine C35_file_partial _ _ _ _ _ _ _ (plainRead_pre _) (plainRead_pre _) (plainRead_pre _) rfl [c!"a", c!"bare", c!"sphere"]
    ⟨⟨by decide, by decide⟩, by decide⟩ (by simp only; decide) (by simp only [IsMessage]; decide) (by simp only; decide) ⟨by simp, ?_⟩ ⟨by simp, ?_⟩ ⟨by simp, ?_⟩
    (.some [([c!"notes", c!"after"], 1)] [c!"the", c!"input"] ?_ ⟨⟨by decide, by decide⟩, by decide⟩)
  · simpa using ⟨k1, k2⟩
  · simpa using k3
  · simpa using k4
  · intro x hx
    simp only [List.mem_cons, List.not_mem_nil, or_false] at hx
    subst hx
    exact ⟨⟨by decide, by decide⟩, by decide⟩

/-- A file as text cards. -/
def exFile (message : Option Str) (title : Str) : InpFile Str Str Str :=
  ⟨message, title, [c!"1 0 -1", c!"2 0 1"], [c!"1 so 5"], [c!"nps 100"], none⟩

/-- **C35 fails with a message:** after reading a file with a message, printing it and reading it again,
the message is the title and the title is the first cell card. -/
theorem C35_message_violated :
    sections c!"message: datapath=x\ntitle\n1 0 -1\n2 0 1\n\n1 so 5\n\nnps 100\n\n" =
      .ok ⟨some c!"message: datapath x\n", c!"title", [c!"1 0 -1", c!"2 0 1"], [c!"1 so 5"], [c!"nps 100"], none⟩ ∧
    sections (filePrint id id id (exFile (some c!"message: datapath x\n") c!"title")) =
      .ok ⟨none, c!"message: datapath x", [c!"title", c!"1 0 -1", c!"2 0 1"], [c!"1 so 5"], [c!"nps 100"], none⟩ := by
  constructor <;> decide +kernel

/-- **C35 fails for titles that are not plain words:** a title can be changed, be taken for the message,
or make the file unreadable. -/
theorem C35_title_violated :
    (sections (filePrint id id id (exFile none c!"keff=1,  second  run"))).map (·.title) = .ok c!"keff 1, second run" ∧
    (sections (filePrint id id id (exFile none c!"Message: none"))).map (fun x => (x.title, x.cells)) = .ok (c!"1 0 -1", [c!"2 0 1"]) ∧
    (sections (filePrint id id id (exFile none c!"run &"))).map (fun x => (x.title, x.cells)) = .ok (c!"run 1 0 -1", [c!"2 0 1"]) ∧
    sections (filePrint id id id (exFile none c!"# test run")) = .error .inp := by
  refine ⟨?_, ?_, ?_, ?_⟩ <;> decide +kernel

/-- **C35 fails without data cards:** a file whose last block is empty does not read back. -/
theorem C35_empty_violated :
    sections (filePrint id id id { exFile none c!"title" with data := [] }) = .error .inp := by
  decide +kernel

end Props
