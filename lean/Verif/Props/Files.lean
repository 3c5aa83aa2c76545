import Verif.Inp.FilesRead
import Verif.Inp.OptionApart
/-!
# C108: files of `files` cards
-/
set_option maxRecDepth 100000
namespace Props
open Py Types Inp

/-- **C108, reading:** a card with any spacing and continuation lines is read five words at a time: unit, name, access, form and length.  The last
file has what is left.  Cards with fewer than two words are refused. -/
theorem C108_read (g0 w0 : Str) (l : List (Gap × Str)) (g1 : Str) (ht : Spaced g0 w0 l g1) (hrd : readHead filesHead w0 = some [])
    (hst : ∀ w ∈ entries l, Stable w) :
    cardParse Tab.Files (g0 ++ (w0 ++ (body l ++ g1))) = (readFiles (entries l)).map (fun v => (v, [])) := by
  obtain ⟨hp, -, hw⟩ := spaced_prep ht
  have h := files_words hw hst hrd
  unfold cardParse
  rw [hp]
  simp only
  rw [← h]
  cases reMatch Tab.Files.re (w0 ++ enc (entries l)) with
  | none => rfl
  | some m =>
    simp only
    cases Tab.Files.build m <;> rfl

theorem fileWords_five : ∀ (k : Nat) (ws vs : List Str), ws.length = 5 * k → fileWords (ws ++ vs) = fileWords ws ++ fileWords vs
  | 0, ws, vs, h => by rw [List.length_eq_zero_iff.1 h]; rfl
  | k + 1, ws, vs, h => by
    match ws, h with
    | a :: b :: c :: d :: e :: ws, h =>
      simp only [List.length_cons] at h
      simp only [List.cons_append, fileWords]
      rw [fileWords_five k ws vs (by omega)]
    | [], h => simp at h
    | [_], h => simp only [List.length_cons, List.length_nil] at h; omega
    | [_, _], h => simp only [List.length_cons, List.length_nil] at h; omega
    | [_, _, _], h => simp only [List.length_cons, List.length_nil] at h; omega
    | [_, _, _, _], h => simp only [List.length_cons, List.length_nil] at h; omega

/-- **C108 fails for a word that is left over, all such cards:** after complete files one more word is ignored, whatever it is. -/
theorem C108_lost (g0 w0 : Str) (l l' : List (Gap × Str)) (g1 g0' w0' g1' : Str) (ht : Spaced g0 w0 l g1) (ht' : Spaced g0' w0' l' g1')
    (hrd : readHead filesHead w0 = some []) (hrd' : readHead filesHead w0' = some []) (hst : ∀ w ∈ entries l, Stable w) (w : Str)
    (he : entries l = entries l' ++ [w]) (k : Nat) (hk : 0 < k) (hl : (entries l').length = 5 * k) :
    cardParse Tab.Files (g0 ++ (w0 ++ (body l ++ g1))) = cardParse Tab.Files (g0' ++ (w0' ++ (body l' ++ g1'))) := by
  rw [C108_read g0 w0 l g1 ht hrd hst, C108_read g0' w0' l' g1' ht' hrd' (fun v hv => hst v (by rw [he]; simp [hv]))]
  congr 1
  unfold readFiles
  rw [he, fileWords_five k _ _ hl, if_neg (by simp; omega), if_neg (by omega)]
  simp [fileWords]

/-- A file as the user builds it. -/
structure FileSpec where
  unit : Int
  name : Str
  access : Option Str
  form : Option Str
  length : Option Int

/-- The values given to the class. -/
def FileSpec.vals (f : FileSpec) : List Val :=
  [.sc (.int (.num f.unit)), .sc (.str f.name), textVal f.access, textVal f.form, match f.length with | none => .none | some n => .sc (.int (.num n))]

def FileSpec.val (f : FileSpec) : Val := .obj Tab.files_File.info f.vals

/-- What is printed. -/
def FileSpec.words (f : FileSpec) : List Str :=
  intStr f.unit :: f.name :: (f.access.toList ++ f.form.toList ++ (f.length.map intStr).toList)

structure FileSpec.Ok (f : FileSpec) : Prop where
  name : Stable f.name
  access : ∀ s ∈ f.access, Stable s ∧ lower s ∈ [c!"sequential", c!"direct", c!"s", c!"d"]
  form : ∀ s ∈ f.form, Stable s ∧ lower s ∈ [c!"formatted", c!"unformatted", c!"f", c!"u"]

theorem file_mk {f : FileSpec} (h : f.Ok) : Tab.files_File.mk' f.vals = .ok f.val := by
  obtain ⟨u, b, c, d, n⟩ := f
  have hc : ∀ s ∈ c, ["sequential", "direct", "s", "d"].any (fun t => t.toList == lower s) = true := by
    intro s hs
    have := (h.access s hs).2
    simp only [List.mem_cons, List.not_mem_nil, or_false] at this
    rcases this with e | e | e | e <;> rw [e] <;> decide
  have hd : ∀ s ∈ d, ["formatted", "unformatted", "f", "u"].any (fun t => t.toList == lower s) = true := by
    intro s hs
    have := (h.form s hs).2
    simp only [List.mem_cons, List.not_mem_nil, or_false] at this
    rcases this with e | e | e | e <;> rw [e] <;> decide
  have e1 : ∀ s ∈ c, (Chk.and .notNone (.not (.lowIn ["sequential", "direct", "s", "d"]))).eval [] (.sc (.str s)) = .ok false := by
    intro s hs
    simp only [Chk.eval, Except.bind, hc s hs]
    rfl
  have e2 : ∀ s ∈ d, (Chk.and .notNone (.not (.lowIn ["formatted", "unformatted", "f", "u"]))).eval [] (.sc (.str s)) = .ok false := by
    intro s hs
    simp only [Chk.eval, Except.bind, hd s hs]
    rfl
  have f1 : ∀ env, (Chk.and .notNone (.not (.lowIn ["sequential", "direct", "s", "d"]))).eval env (textVal c) = .ok false := by
    intro env
    cases c with
    | none => rfl
    | some s => exact e1 s rfl
  have f2 : ∀ env, (Chk.and .notNone (.not (.lowIn ["formatted", "unformatted", "f", "u"]))).eval env (textVal d) = .ok false := by
    intro env
    cases d with
    | none => rfl
    | some s => exact e2 s rfl
  have hi : Tab.files_File.init = ["unit", "filename", "access", "form", "length"] := rfl
  have hat : Tab.files_File.attrs = [⟨"unit", .base .int, false, some .isNone⟩, ⟨"filename", .base .str, false, some .isNone⟩,
    ⟨"access", .base .str, false, some (.and .notNone (.not (.lowIn ["sequential", "direct", "s", "d"])))⟩,
    ⟨"form", .base .str, false, some (.and .notNone (.not (.lowIn ["formatted", "unformatted", "f", "u"])))⟩,
    ⟨"length", .base .int, false, none⟩] := rfl
  unfold Cls.mk' FileSpec.val FileSpec.vals
  rw [hi, hat]
  have f3 : ∀ env x, Chk.isNone.eval env (.sc x) = .ok false := fun _ _ => rfl
  simp [runInit, setAttr, f1, f2, f3]

theorem file_text (f : FileSpec) : f.val.text = some (join [' '] f.words) := by
  obtain ⟨u, b, c, d, n⟩ := f
  have hs : Tab.files_File.info.style = .entry := rfl
  have ha : Tab.files_File.info.attrs = ["unit", "filename", "access", "form", "length"] := rfl
  have hv : (FileSpec.val ⟨u, b, c, d, n⟩).text = some (objStr Tab.files_File.info [some (intStr u), some b, c, d, n.map intStr]) := by
    cases c <;> cases d <;> cases n <;> rfl
  rw [hv]
  unfold objStr
  simp only [hs, ha]
  cases c <;> cases d <;> cases n <;> rfl

/-- The words of a file are read as the file, if no value is missing before one that is given. -/
def FileSpec.Packed (f : FileSpec) : Prop := (f.access = none → f.form = none) ∧ (f.form = none → f.length = none)

theorem file_read {f : FileSpec} (h : f.Ok) (hp : f.Packed) : readFile f.words = .ok f.val := by
  rw [← file_mk h]
  obtain ⟨u, b, c, d, n⟩ := f
  have hi : ∀ n : Int, intParse (intStr n) = .ok (.num n) := C02_integer_roundtrip
  obtain ⟨h1, h2⟩ := hp
  simp only at h1 h2
  show readParts (intStr u) b _ _ _ = _
  unfold readParts FileSpec.vals
  rw [hi u]
  cases c with
  | none =>
    cases h1 rfl
    cases h2 rfl
    rfl
  | some c =>
    cases d with
    | none =>
      cases h2 rfl
      rfl
    | some d =>
      cases n with
      | none => rfl
      | some n =>
        have : ((some c).toList ++ (some d).toList ++ (Option.map intStr (some n)).toList)[2]? = some (intStr n) := rfl
        rw [this]
        dsimp only
        rw [hi n]
        rfl

theorem file_stable {f : FileSpec} (h : f.Ok) : ∀ w ∈ f.words, Stable w := by
  have hi : ∀ n : Int, Stable (intStr n) := fun n => plain_num (intStr_ne_nil n) (by
    intro c hc
    rcases intStr_chars n c hc with h | rfl
    · exact numCh_digit h
    · decide)
  intro w hw
  unfold FileSpec.words at hw
  simp only [List.mem_cons, List.mem_append, Option.mem_toList, Option.map_eq_some_iff] at hw
  rcases hw with rfl | rfl | (hw | hw) | hw
  · exact hi _
  · exact h.name
  · exact (h.access w hw).1
  · exact (h.form w hw).1
  · obtain ⟨n, -, rfl⟩ := hw
    exact hi n

/-- The card. -/
def filesCard (fs : List FileSpec) : Val := .obj Tab.Files.info [.tuple (fs.map FileSpec.val)]

/-- **C108, printing:** a printed card is read five words at a time, whatever files they came from. -/
theorem C108_printed (fs : List FileSpec) (hok : ∀ f ∈ fs, f.Ok) (hne : fs ≠ []) :
    cardParse Tab.Files (filesCard fs).str = (readFiles (fs.map FileSpec.words).flatten).map (fun v => (v, [])) := by
  have hst : ∀ w ∈ (fs.map FileSpec.words).flatten, Stable w := by
    intro w hw
    obtain ⟨x, hx, hwx⟩ := List.mem_flatten.1 hw
    obtain ⟨f, hf, rfl⟩ := List.mem_map.1 hx
    exact file_stable (hok f hf) w hwx
  have he : Entry c!"files" := by constructor <;> decide
  have hws : Words (c!"files" :: (fs.map FileSpec.words).flatten) := by
    intro w hw
    rcases List.mem_cons.1 hw with rfl | hw
    · exact ⟨he.sp, he.ne⟩
    · exact ⟨(hst w hw).entry.sp, (hst w hw).entry.ne⟩
  have hstr : (filesCard fs).str = postprocess (join [' '] (c!"files" :: (fs.map FileSpec.words).flatten)) := by
    have e1 : (Val.parts (fs.map FileSpec.val)).map orNil = (fs.map FileSpec.words).map (join [' ']) := by
      rw [Val.parts_eq, List.map_map, List.map_map, List.map_map]
      apply List.map_congr_left
      intro f _
      simp only [Function.comp_apply, file_text]
      rfl
    have e2 : (filesCard fs).str = postprocess (strip (c!"files" ++ ' ' :: join [' '] ((Val.parts (fs.map FileSpec.val)).map orNil))) := by
      have hs : Tab.Files.info.style = .card := rfl
      have ha : Tab.Files.info.attrs = ["creations"] := rfl
      have hk : Tab.Files.info.kw = c!"files" := rfl
      have hp : Val.parts [.tuple (fs.map FileSpec.val)] = [some (join [' '] ((Val.parts (fs.map FileSpec.val)).map orNil))] := rfl
      unfold filesCard
      rw [obj_str, hp]
      unfold objStr
      simp only [hs, ha, hk]
      generalize join [' '] ((Val.parts (fs.map FileSpec.val)).map orNil) = t
      have h1 : headStr c!"files" ((["creations"] : List String).zip [some t]) = c!"files" := by
        simp [headStr, part, orNil]
      have h2 : bodyStr ((["creations"] : List String).zip [some t]) = t := by
        simp [bodyStr, special, join]
      rw [h1, h2]
    rw [e2, e1, join_rows _ (by
      intro x hx
      obtain ⟨f, -, rfl⟩ := List.mem_map.1 hx
      simp [FileSpec.words]), strip_text _ _ hws]
  have h := files_words hws hst (by decide +kernel)
  rw [hstr]
  unfold cardParse
  rw [C18_wrap_roundtrip _ _ (fun w hw => by
      rcases List.mem_cons.1 hw with rfl | hw
      · exact he
      · exact (hst w hw).entry) (fun w hw => (hst w hw).low) (fun w hw => (hst w hw).cnt), join_enc]
  simp only
  rw [← h]
  cases reMatch Tab.Files.re (c!"files" ++ enc (fs.map FileSpec.words).flatten) with
  | none => rfl
  | some m =>
    simp only
    cases Tab.Files.build m <;> rfl

/-- A file with all its values. -/
def FileSpec.Complete (f : FileSpec) : Prop := f.access ≠ none ∧ f.form ≠ none ∧ f.length ≠ none

theorem complete_length {f : FileSpec} (h : f.Complete) : f.words.length = 5 := by
  obtain ⟨u, b, c, d, n⟩ := f
  obtain ⟨h1, h2, h3⟩ := h
  cases c <;> cases d <;> cases n <;> simp_all [FileSpec.words]

theorem words_short {ws : List Str} (h1 : 2 ≤ ws.length) (h2 : ws.length ≤ 5) : fileWords ws = [ws] := by
  match ws, h1, h2 with
  | [_, _], _, _ => rfl
  | [_, _, _], _, _ => rfl
  | [_, _, _, _], _, _ => rfl
  | [_, _, _, _, _], _, _ => rfl

theorem file_length (f : FileSpec) : 2 ≤ f.words.length ∧ f.words.length ≤ 5 := by
  obtain ⟨u, b, c, d, n⟩ := f
  cases c <;> cases d <;> cases n <;> simp [FileSpec.words]

theorem complete_words : ∀ (fs : List FileSpec) (g : FileSpec), (∀ f ∈ fs, f.Complete) →
    fileWords ((fs ++ [g]).map FileSpec.words).flatten = (fs ++ [g]).map FileSpec.words
  | [], g, _ => by
    simp only [List.nil_append, List.map_cons, List.map_nil, List.flatten_cons, List.flatten_nil, List.append_nil]
    exact words_short (file_length g).1 (file_length g).2
  | f :: fs, g, h => by
    have hf := complete_length (h f (by simp))
    rw [List.cons_append, List.map_cons, List.flatten_cons, fileWords_five 1 _ _ (by omega), complete_words fs g (fun x hx => h x (by simp [hx])),
      words_short (by omega) (by omega)]
    rfl

theorem files_mapM : ∀ (fs : List FileSpec), (∀ f ∈ fs, f.Ok ∧ f.Packed) → (fs.map FileSpec.words).mapM readFile = .ok (fs.map FileSpec.val)
  | [], _ => by rw [List.map_nil, List.mapM_nil]; rfl
  | f :: fs, h => by
    rw [List.map_cons, List.mapM_cons, file_read (h f (by simp)).1 (h f (by simp)).2, files_mapM fs (fun x hx => h x (by simp [hx]))]
    rfl

theorem files_mk (vs : List Val) : Tab.Files.mk' [.tuple vs] = .ok (.obj Tab.Files.info [.tuple vs]) := rfl

/-- **C108, round trip:** a card whose files all have access, form and length, except that the last may leave out values at its end, is read
back as the same card.  Missing: every card in which an earlier file leaves out a value; `C108_merged` shows what becomes of those. -/
theorem C108_roundtrip_partial (fs : List FileSpec) (g : FileSpec) (hok : ∀ f ∈ fs ++ [g], f.Ok) (hc : ∀ f ∈ fs, f.Complete) (hg : g.Packed) :
    cardParse Tab.Files (filesCard (fs ++ [g])).str = .ok (filesCard (fs ++ [g]), []) := by
  have hpk : ∀ f ∈ fs ++ [g], f.Ok ∧ f.Packed := by
    intro f hf
    refine ⟨hok f hf, ?_⟩
    rcases List.mem_append.1 hf with h | h
    · exact ⟨fun e => absurd e (hc f h).1, fun e => absurd e (hc f h).2.1⟩
    · rw [List.mem_singleton.1 h]; exact hg
  rw [C108_printed _ hok (by simp)]
  unfold readFiles
  have hl : ¬ ((fs ++ [g]).map FileSpec.words).flatten.length < 2 := by
    have := (file_length g).1
    simp only [List.map_append, List.flatten_append, List.length_append, List.map_cons, List.map_nil, List.flatten_cons, List.flatten_nil, List.append_nil]
    omega
  rw [if_neg hl, complete_words fs g hc, files_mapM _ hpk]
  rfl

/-- **C108 fails for files without a length, all of them:** a card with two files, of which the first has access and form but no length and the
second a unit and a name, is printed and read as a card with one file.  Its length is the unit of the second file, whose name is lost. -/
theorem C108_merged (f g : FileSpec) (hf : f.Ok) (hg : g.Ok) (h1 : f.access ≠ none) (h2 : f.form ≠ none) (h3 : f.length = none)
    (h4 : g.access = none ∧ g.form = none ∧ g.length = none) :
    cardParse Tab.Files (filesCard [f, g]).str = .ok (filesCard [{ f with length := some g.unit }], []) := by
  rw [C108_printed [f, g] (by simp [hf, hg]) (by simp)]
  have hm : FileSpec.Ok { f with length := some g.unit } := ⟨hf.name, hf.access, hf.form⟩
  have hr := file_read hm ⟨fun e => absurd e h1, fun e => absurd e h2⟩
  obtain ⟨u, b, c, d, n⟩ := f
  obtain ⟨u', b', c', d', n'⟩ := g
  obtain ⟨rfl, rfl, rfl⟩ := h4
  simp only at h1 h2 h3 hr ⊢
  subst h3
  cases c with
  | none => exact absurd rfl h1
  | some c =>
    cases d with
    | none => exact absurd rfl h2
    | some d =>
      have hw : fileWords ([FileSpec.mk u b (some c) (some d) none, ⟨u', b', none, none, none⟩].map FileSpec.words).flatten =
        [FileSpec.words ⟨u, b, some c, some d, some u'⟩] := rfl
      unfold readFiles
      rw [hw, if_neg (by simp [FileSpec.words]), List.mapM_cons, hr, List.mapM_nil]
      rfl

theorem int_not_access (n : Int) : (["sequential", "direct", "s", "d"].any (fun t => t.toList == lower (intStr n))) = false := by
  have hne := intStr_ne_nil n
  have hch := intStr_chars n
  cases hs : intStr n with
  | nil => exact absurd hs hne
  | cons c t =>
    rw [hs] at hch
    have hc : lowerC c ≠ 's' ∧ lowerC c ≠ 'd' := by
      rcases hch c (by simp) with h | rfl
      · rw [lower_digit h]
        exact ⟨by rintro rfl; revert h; decide, by rintro rfl; revert h; decide⟩
      · decide
    have h1 : ∀ (x : Char) (xs : Str), lowerC c ≠ x → ((x :: xs) == lower (c :: t)) = false := by
      intro x xs h
      rw [beq_eq_false_iff_ne]
      intro e
      simp only [lower, List.map_cons, List.cons.injEq] at e
      exact h e.1.symm
    simp only [List.any_cons, List.any_nil, Bool.or_false]
    rw [show "sequential".toList = 's' :: c!"equential" from rfl, show "direct".toList = 'd' :: c!"irect" from rfl, show "s".toList = 's' :: [] from rfl,
      show "d".toList = 'd' :: [] from rfl, h1 _ _ hc.1, h1 _ _ hc.2, h1 _ _ hc.1, h1 _ _ hc.2]
    rfl

/-- **C108 fails for plain files, all of them:** a card with two files that have a unit and a name only is printed as a text that is
refused, since the unit of the second file is taken for the access of the first. -/
theorem C108_plain_refused (f g : FileSpec) (hf : f.Ok) (hg : g.Ok) (h3 : f.access = none ∧ f.form = none ∧ f.length = none)
    (h4 : g.access = none ∧ g.form = none ∧ g.length = none) : cardParse Tab.Files (filesCard [f, g]).str = .error .inp := by
  rw [C108_printed [f, g] (by simp [hf, hg]) (by simp)]
  obtain ⟨u, b, c, d, n⟩ := f
  obtain ⟨u', b', c', d', n'⟩ := g
  obtain ⟨rfl, rfl, rfl⟩ := h4
  obtain ⟨rfl, rfl, rfl⟩ := h3
  have hw : fileWords ([FileSpec.mk u b none none none, ⟨u', b', none, none, none⟩].map FileSpec.words).flatten = [[intStr u, b, intStr u', b']] := rfl
  have hi : ∀ n : Int, intParse (intStr n) = .ok (.num n) := C02_integer_roundtrip
  have hr : readFile [intStr u, b, intStr u', b'] = .error .inp := by
    show readParts (intStr u) b (some (intStr u')) (some b') none = _
    unfold readParts
    rw [hi u]
    have f1 : ∀ env, (Chk.and .notNone (.not (.lowIn ["sequential", "direct", "s", "d"]))).eval env (.sc (.str (intStr u'))) = .ok true := by
      intro env
      simp only [Chk.eval, Except.bind, int_not_access]
      rfl
    have hi : Tab.files_File.init = ["unit", "filename", "access", "form", "length"] := rfl
    have hat : Tab.files_File.attrs = [⟨"unit", .base .int, false, some .isNone⟩, ⟨"filename", .base .str, false, some .isNone⟩,
      ⟨"access", .base .str, false, some (.and .notNone (.not (.lowIn ["sequential", "direct", "s", "d"])))⟩,
      ⟨"form", .base .str, false, some (.and .notNone (.not (.lowIn ["formatted", "unformatted", "f", "u"])))⟩,
      ⟨"length", .base .int, false, none⟩] := rfl
    have f3 : ∀ env x, Chk.isNone.eval env (.sc x) = .ok false := fun _ _ => rfl
    dsimp only [textVal]
    unfold Cls.mk'
    rw [hi, hat]
    simp [runInit, setAttr, f1, f3]
  unfold readFiles
  rw [hw, if_neg (by simp [FileSpec.words]), List.mapM_cons, hr]
  rfl

/-- A file built without access is printed without it, so that its form is read as the access. -/
theorem C108_gap_violated :
    let f := FileSpec.val ⟨21, c!"dump", none, some c!"f", some 128⟩
    Tab.files_File.mk' (FileSpec.vals ⟨21, c!"dump", none, some c!"f", some 128⟩) = .ok f ∧ f.str = c!"21 dump f 128" ∧
      unionParse [Tab.files_File] f.str = .error .inp := by decide +kernel

/-! ## Cases -/

def exTape : FileSpec := ⟨21, c!"tape", some c!"S", some c!"f", none⟩
def exDump : FileSpec := ⟨22, c!"dump", none, none, none⟩

theorem stable_words : ∀ w ∈ [c!"tape", c!"dump", c!"S", c!"f", c!"21", c!"22", c!"0"], Stable w := by
  intro w hw
  simp only [List.mem_cons, List.not_mem_nil, or_false] at hw
  rcases hw with rfl | rfl | rfl | rfl | rfl | rfl | rfl <;>
    exact ⟨by constructor <;> decide, by intro h; revert h; decide, by decide +kernel⟩

theorem exTape_ok : exTape.Ok :=
  ⟨stable_words _ (by decide), by intro s hs; cases hs; exact ⟨stable_words _ (by decide), by decide⟩, by
    intro s hs; cases hs; exact ⟨stable_words _ (by decide), by decide⟩⟩

theorem exDump_ok : exDump.Ok := ⟨stable_words _ (by decide), (by intro s hs; cases hs), (by intro s hs; cases hs)⟩

/-- Two files become one. -/
example : (filesCard [exTape, exDump]).str = c!"files 21 tape S f 22 dump" ∧
    cardParse Tab.Files c!"files 21 tape S f 22 dump" = .ok (filesCard [⟨21, c!"tape", some c!"S", some c!"f", some 22⟩], []) := by
  have h : (filesCard [exTape, exDump]).str = c!"files 21 tape S f 22 dump" := by decide +kernel
  have := C108_merged exTape exDump exTape_ok exDump_ok (by simp [exTape]) (by simp [exTape]) rfl ⟨rfl, rfl, rfl⟩
  rw [h] at this
  exact ⟨h, this⟩

example : cardParse Tab.Files (filesCard [{ exTape with length := some 0 }, exDump]).str = .ok (filesCard [{ exTape with length := some 0 }, exDump], []) :=
  C108_roundtrip_partial [{ exTape with length := some 0 }] exDump (by
    intro f hf
    simp only [List.cons_append, List.nil_append, List.mem_cons, List.not_mem_nil, or_false] at hf
    rcases hf with rfl | rfl
    · exact ⟨exTape_ok.name, exTape_ok.access, exTape_ok.form⟩
    · exact exDump_ok) (by
    intro f hf
    rw [List.mem_singleton.1 hf]
    exact ⟨by simp [exTape], by simp [exTape], by simp⟩) ⟨fun _ => rfl, fun _ => rfl⟩

example : cardParse Tab.Files (filesCard [exDump, exDump]).str = .error .inp :=
  C108_plain_refused exDump exDump exDump_ok exDump_ok ⟨rfl, rfl, rfl⟩ ⟨rfl, rfl, rfl⟩

/-- A word left over. -/
example : cardParse Tab.Files c!"files 21 tape S f 0 22" = cardParse Tab.Files c!"files 21 tape S f 0" := by
  obtain ⟨a1, a2⟩ := spaced_single c!"files" [c!"21", c!"tape", c!"S", c!"f", c!"0", c!"22"] [] (by constructor <;> decide)
    (fun w hw => stable_words w (by revert hw w; decide)) .nil
  obtain ⟨b1, b2⟩ := spaced_single c!"files" [c!"21", c!"tape", c!"S", c!"f", c!"0"] [] (by constructor <;> decide)
    (fun w hw => stable_words w (by revert hw w; decide)) .nil
  have := C108_lost [] c!"files" _ _ [] [] c!"files" [] a1 b1 (by decide +kernel) (by decide +kernel)
    (by rw [a2]; exact fun w hw => stable_words w (by revert hw w; decide)) c!"22" (by rw [a2, b2]; rfl) 1 (by decide) (by rw [b2]; rfl)
  rw [single_body, single_body] at this
  exact this

end Props
