import Verif.Inp.RowOption
import Verif.Inp.DepRead
import Verif.Inp.CaseLemmas
/-!
# Reading the filters of particle track files
-/
set_option maxRecDepth 100000
namespace Inp
open Py Types

/-- `[^\s,]` (src/pymcnp/inp/ptrac/filter/Entry.py:21) -/
abbrev partC : Char → Bool := CC.test (.set true [.s, .ch ','])

theorem lowerC_comma {c : Char} : lowerC c = lowerC ',' ↔ c = ',' :=
  ⟨fun h => (nonletter h.symm (by decide +kernel)).symm, fun h => by rw [h]⟩

theorem partC_iff {c : Char} : partC c = true ↔ isSpace c = false ∧ c ≠ ',' := by
  simp only [partC, CC.test, List.any_cons, List.any_nil, CI.test, Bool.or_false]
  have : (lowerC c == lowerC ',') = decide (c = ',') := by
    rw [Bool.eq_iff_iff]; simp [lowerC_comma]
  rw [this]
  by_cases h : c = ',' <;> cases isSpace c <;> simp [h]

/-- A text between commas. -/
def CommaPart (a : Str) : Prop := a ≠ [] ∧ ∀ c ∈ a, isSpace c = false ∧ c ≠ ','

/-- What follows the second part. -/
def thirdText : Option Str → Str
  | none => []
  | some c => ',' :: c

/-- One entry of a filter as it stands in the text. -/
def filterText (a b : Str) (c : Option Str) : Str := a ++ ',' :: (b ++ thirdText c)

def filterRe (n : Nat) : Re := .seq (.grp n (.plus true (.cls partC))) (.seq (litRe c!",") (.seq (.grp (n + 1) (.plus true (.cls partC)))
  (.opt true (.seq (litRe c!",") (.grp (n + 2) (.plus true (.cls partC)))))))

theorem filterRe_eq (n : Nat) : Tab.T_ptrac_filter_Entry.re n = filterRe n := rfl

theorem mt_comma {w e} : Mt (litRe c!",") w e ↔ w = [','] ∧ e = [] := by
  rw [mt_lit]
  constructor
  · rintro ⟨h, rfl⟩
    cases w with
    | nil => simp [lower] at h
    | cons c t =>
      cases t with
      | nil =>
        simp only [lower, List.map_cons, List.map_nil, List.cons.injEq, and_true] at h
        rw [lowerC_comma.1 h]; exact ⟨rfl, rfl⟩
      | cons => simp [lower] at h
  · rintro ⟨rfl, rfl⟩; exact ⟨rfl, rfl⟩

theorem mt_part {n w e} : Mt (.grp n (.plus true (.cls partC))) w e ↔ CommaPart w ∧ e = [(n, w)] := by
  rw [mt_grp]
  constructor
  · rintro ⟨z, h, rfl⟩
    obtain ⟨h1, h2, rfl⟩ := mt_plus_cls.1 h
    exact ⟨⟨h1, fun c hc => partC_iff.1 (h2 c hc)⟩, rfl⟩
  · rintro ⟨⟨h1, h2⟩, rfl⟩
    exact ⟨[], mt_plus_cls.2 ⟨h1, fun c hc => partC_iff.2 (h2 c hc), rfl⟩, rfl⟩

def thirdCaps (n : Nat) : Option Str → List (Nat × Str)
  | none => []
  | some c => [(n, c)]

theorem mt_filter {n w e} : Mt (filterRe n) w e ↔ ∃ a b c, CommaPart a ∧ CommaPart b ∧ (∀ d ∈ c, CommaPart d) ∧ w = filterText a b c ∧
    e = thirdCaps (n + 2) c ++ [(n + 1, b), (n, a)] := by
  unfold filterRe
  constructor
  · intro h
    obtain ⟨a, _, _, _, h1, g1, rfl, rfl⟩ := mt_seq.1 h
    obtain ⟨k, _, _, _, h2, g2, rfl, rfl⟩ := mt_seq.1 g1
    obtain ⟨b, t, _, _, h3, g3, rfl, rfl⟩ := mt_seq.1 g2
    obtain ⟨p1, rfl⟩ := mt_part.1 h1
    obtain ⟨rfl, rfl⟩ := mt_comma.1 h2
    obtain ⟨p2, rfl⟩ := mt_part.1 h3
    rcases mt_opt.1 g3 with ⟨rfl, rfl⟩ | g4
    · exact ⟨a, b, none, p1, p2, by simp, by simp [filterText, thirdText], by simp [thirdCaps]⟩
    · obtain ⟨k, c, _, _, h4, h5, rfl, rfl⟩ := mt_seq.1 g4
      obtain ⟨rfl, rfl⟩ := mt_comma.1 h4
      obtain ⟨p3, rfl⟩ := mt_part.1 h5
      exact ⟨a, b, some c, p1, p2, by simpa using p3, by simp [filterText, thirdText], by simp [thirdCaps]⟩
  · rintro ⟨a, b, c, p1, p2, p3, rfl, rfl⟩
    refine mt_seq.2 ⟨a, _, _, _, mt_part.2 ⟨p1, rfl⟩, mt_seq.2 ⟨[','], _, [], _, mt_comma.2 ⟨rfl, rfl⟩,
      mt_seq.2 ⟨b, thirdText c, _, thirdCaps (n + 2) c, mt_part.2 ⟨p2, rfl⟩, ?_, rfl, rfl⟩, rfl, rfl⟩, rfl, by simp⟩
    cases c with
    | none => exact mt_opt.2 (.inl ⟨rfl, rfl⟩)
    | some c => exact mt_opt.2 (.inr (mt_seq.2 ⟨[','], c, [], _, mt_comma.2 ⟨rfl, rfl⟩, mt_part.2 ⟨p3 c rfl, rfl⟩, rfl, rfl⟩))

/-- Texts end at the first comma. -/
theorem comma_split : ∀ {a a' t t' : Str}, (∀ c ∈ a, c ≠ ',') → (∀ c ∈ a', c ≠ ',') → (∀ c ∈ t.head?, c = ',') → (∀ c ∈ t'.head?, c = ',') →
    a ++ t = a' ++ t' → a = a' ∧ t = t'
  | [], [], _, _, _, _, _, _, h => ⟨rfl, h⟩
  | [], c :: a', t, t', _, h2, h3, _, h => by
    simp only [List.nil_append] at h
    subst h
    exact absurd (h3 c rfl) (h2 c (by simp))
  | c :: a, [], t, t', h1, _, _, h4, h => by
    simp only [List.nil_append] at h
    subst h
    exact absurd (h4 c rfl) (h1 c (by simp))
  | c :: a, c' :: a', t, t', h1, h2, h3, h4, h => by
    simp only [List.cons_append, List.cons.injEq] at h
    obtain ⟨r1, r2⟩ := comma_split (fun d hd => h1 d (by simp [hd])) (fun d hd => h2 d (by simp [hd])) h3 h4 h.2
    exact ⟨by rw [h.1, r1], r2⟩

theorem third_head (c : Option Str) : ∀ d ∈ (thirdText c).head?, d = ',' := by
  cases c <;> simp [thirdText]

theorem filter_inj {a b a' b' : Str} {c c' : Option Str} (h1 : CommaPart a) (h2 : CommaPart a') (h3 : CommaPart b) (h4 : CommaPart b')
    (h : filterText a b c = filterText a' b' c') : a = a' ∧ b = b' ∧ c = c' := by
  obtain ⟨r1, r2⟩ := comma_split (fun c hc => (h1.2 c hc).2) (fun c hc => (h2.2 c hc).2) (by simp) (by simp) h
  simp only [List.cons.injEq, true_and] at r2
  obtain ⟨r3, r4⟩ := comma_split (fun c hc => (h3.2 c hc).2) (fun c hc => (h4.2 c hc).2) (third_head c) (third_head c') r2
  refine ⟨r1, r3, ?_⟩
  cases c <;> cases c' <;> simp [thirdText] at r4 ⊢
  exact r4

/-- A part is matched up to where it ends. -/
theorem run_part {n : Nat} {a rest prev : Str} {caps} {k : St → Option St} {x : St} (ha : CommaPart a) (hr : ∀ c cs, rest = c :: cs → partC c = false)
    (h : k ⟨a.reverse ++ prev, rest, (n, a) :: caps⟩ = some x) : run (.grp n (.plus true (.cls partC))) ⟨prev, a ++ rest, caps⟩ k = some x := by
  obtain ⟨hne, hall⟩ := ha
  rw [run_grp]
  cases a with
  | nil => exact absurd rfl hne
  | cons d t =>
    simp only [Re.plus, run_seq, List.cons_append, run_cls_cons, partC_iff.2 (hall d (by simp)), if_true]
    refine run_star_cls_full _ t rest (d :: prev) caps _ x (fun a ha => partC_iff.2 (hall a (by simp [ha]))) hr ?_
    have ht := take_consumed (d :: t) rest
    simp only [List.cons_append] at ht
    simp only [ht]
    rw [← h]; simp

theorem tok_filter (n : Nat) : Tok (filterRe n) := by
  intro w hw rest hr prev caps k hk
  obtain ⟨e, hw⟩ := hw
  obtain ⟨a, b, c, p1, p2, p3, rfl, rfl⟩ := mt_filter.1 hw
  have hsp : ∀ c cs, rest = c :: cs → partC c = false := by
    intro c cs h
    have := hr c (by simp [h])
    cases hp : partC c with
    | false => rfl
    | true => rw [(partC_iff.1 hp).1] at this; cases this
  have hcm : partC ',' = false := by decide
  refine ⟨thirdCaps (n + 2) c ++ ((n + 1, b) :: (n, a) :: caps), ?_⟩
  obtain ⟨x, hx⟩ := Option.isSome_iff_exists.1 (hk (thirdCaps (n + 2) c ++ ((n + 1, b) :: (n, a) :: caps)))
  rw [hx]
  unfold filterRe
  have e1 : filterText a b c ++ rest = a ++ (',' :: (b ++ (thirdText c ++ rest))) := by simp [filterText]
  rw [e1, run_seq]
  refine run_part p1 (by intro c cs h; cases h; exact hcm) ?_
  rw [run_seq, show ',' :: (b ++ (thirdText c ++ rest)) = [','] ++ (b ++ (thirdText c ++ rest)) from rfl, run_lit_ok c!"," [','] rfl, run_seq]
  refine run_part p2 ?_ ?_
  · cases c with
    | none => simpa [thirdText] using hsp
    | some c => intro c cs h; cases h; exact hcm
  rw [run_opt_greedy, run_seq]
  cases c with
  | none =>
    have : run (litRe c!",") ⟨b.reverse ++ ([','].reverse ++ (a.reverse ++ prev)), thirdText none ++ rest, (n + 1, b) :: (n, a) :: caps⟩
        (fun st => run (.grp (n + 2) (.plus true (.cls partC))) st k) = none := by
      simp only [thirdText, List.nil_append]
      cases rest with
      | nil => rfl
      | cons d t =>
        refine run_lit_no ',' d [] ?_ _ _ _ _
        intro h
        rw [lowerC_comma.1 h] at hr
        exact absurd (hr ',' (by simp)) (by decide)
    rw [this, Option.none_or, ← hx]
    simp [filterText, thirdText, thirdCaps]
  | some c =>
    apply or_of_some
    rw [show thirdText (some c) ++ rest = [','] ++ (c ++ rest) from rfl, run_lit_ok c!"," [','] rfl]
    refine run_part (p3 c rfl) hsp ?_
    rw [← hx]
    simp [filterText, thirdText, thirdCaps]

theorem filter_facts (n : Nat) : (filterRe n).free = true ∧ (filterRe n).noSp ∧ (filterRe n).groupsIn n (n + 3) :=
  Pat.facts (.seq (.grp (.plus true (.cls (.set true [.s, .ch ','])))) (.seq (.lits c!",") (.seq (.grp (.plus true (.cls (.set true [.s, .ch ',']))))
    (.opt (.ngrp (.seq (.lits c!",") (.grp (.plus true (.cls (.set true [.s, .ch ','])))))))))) (by decide +kernel) n

theorem row_filter (n : Nat) : Row (filterRe n) [Full (filterRe n)] :=
  row_one (filter_facts n).1 (noSp_mt (filter_facts n).2.1) (by
    intro e h
    obtain ⟨a, b, c, -, -, -, h, -⟩ := mt_filter.1 h
    cases a <;> simp [filterText] at h) (tok_filter n)

/-- What one entry is read as: a number, a text and a number.  Without the second number it is refused. -/
def readFilter (a b : Str) (c : Option Str) : Res Val :=
  match realParse a with
  | .error e => .error e
  | .ok x => match c with
    | none => .error .inp
    | some c => match realParse c with
      | .error e => .error e
      | .ok y => .ok (.obj Tab.ptrac_filter_Entry.info [.sc (.real x), .sc (.str b), .sc (.real y)])

theorem filter_build {m : List (Nat × Str)} {a b : Str} {c : Option Str} (h1 : m.lookup 1 = some a) (h2 : m.lookup 2 = some b) (h3 : m.lookup 3 = c)
    (ha : CommaPart a) (hb : CommaPart b) (hc : ∀ d ∈ c, CommaPart d) : Tab.ptrac_filter_Entry.build m = readFilter a b c := by
  have w : ∀ {a}, CommaPart a → NoSpace a ∧ a ≠ [] := fun h => ⟨fun c hc => (h.2 c hc).1, h.1⟩
  unfold Cls.build
  have b1 := attr_word Tab.ptrac_filter_Entry.pat.ng m 0 ⟨"lower", .base .real, false, some .isNone⟩ (by decide +kernel) rfl (some a) h1
    (by intro u hu; cases hu; exact w ha)
  have b2 := attr_word Tab.ptrac_filter_Entry.pat.ng m (0 + 1) ⟨"variable", .base .str, false, none⟩ (by decide +kernel) rfl (some b) h2
    (by intro u hu; cases hu; exact w hb)
  have b3 := attr_word Tab.ptrac_filter_Entry.pat.ng m (0 + 1 + 1) ⟨"upper", .base .real, false, some .isNone⟩ (by decide +kernel) rfl c h3
    (by intro u hu; exact w (hc u hu))
  have hat : Tab.ptrac_filter_Entry.attrs = [⟨"lower", .base .real, false, some .isNone⟩, ⟨"variable", .base .str, false, none⟩,
    ⟨"upper", .base .real, false, some .isNone⟩] := rfl
  rw [hat]
  simp only [attrVals]
  rw [b1, b2, b3]
  have c1 : readVal ⟨"lower", .base .real, false, some .isNone⟩ (Option.map (fun x => [x]) (some a)) = (realParse a).map (fun n => Val.sc (.real n)) := rfl
  have c2 : readVal ⟨"variable", .base .str, false, none⟩ (Option.map (fun x => [x]) (some b)) = .ok (Val.sc (.str b)) := rfl
  rw [c1, c2]
  unfold readFilter
  cases realParse a with
  | error => rfl
  | ok x =>
    cases c with
    | none => rfl
    | some c =>
      have c3 : readVal ⟨"upper", .base .real, false, some .isNone⟩ (Option.map (fun x => [x]) (some c)) = (realParse c).map (fun n => Val.sc (.real n)) := rfl
      rw [c3]
      dsimp only
      cases realParse c <;> rfl

/-- One entry as it is written. -/
structure FilterRow where
  a : Str
  b : Str
  c : Option Str

def FilterRow.text (r : FilterRow) : Str := filterText r.a r.b r.c

structure FilterRow.Ok (r : FilterRow) : Prop where
  a : CommaPart r.a
  b : CommaPart r.b
  c : ∀ d ∈ r.c, CommaPart d
  st : Stable r.text

def FilterRow.read (r : FilterRow) : Res Val := readFilter r.a r.b r.c

theorem filter_full {r : FilterRow} (h : r.Ok) (n : Nat) : Full (filterRe n) r.text := ⟨_, mt_filter.2 ⟨_, _, _, h.a, h.b, h.c, rfl, rfl⟩⟩

theorem filter_entry {r : FilterRow} (h : r.Ok) : unionParse [Tab.ptrac_filter_Entry] r.text = r.read := by
  obtain ⟨s1, s2⟩ := spaced_single r.text [] [] h.st.entry (by simp) .nil
  have hp := (spaced_prep s1).2.1
  rw [single_body, s2, List.nil_append, List.append_nil] at hp
  refine union_one (t := r.text) (by simpa [enc] using hp) ?_
  have hre : Tab.ptrac_filter_Entry.re = anchored (filterRe 1) := rfl
  obtain ⟨m, hm⟩ := Option.isSome_iff_exists.1 ((full_iff _ (filter_facts 1).1 _).2 (filter_full h 1))
  obtain ⟨e, he, rfl⟩ := full_match (filter_facts 1).1 hm
  rw [hre, show anchored (filterRe 1) = .seq .bos (.seq (filterRe 1) .eos) from rfl, hm]
  simp only
  obtain ⟨a, b, c, p1, p2, p3, e1, rfl⟩ := mt_filter.1 he
  obtain ⟨rfl, rfl, rfl⟩ := filter_inj h.a p1 h.b p2 e1
  refine filter_build ?_ ?_ ?_ h.a h.b h.c <;> cases r.c <;> simp [thirdCaps, List.lookup]

/-- What an option of such entries is read as. -/
def readFilters (rs : List FilterRow) : Res Val :=
  match rs.mapM FilterRow.read with
  | .error e => .error e
  | .ok ys => Tab.ptrac_Filter.mk' [.tuple ys]

theorem filter_entries : ∀ rs : List FilterRow, (∀ r ∈ rs, r.Ok) →
    (rs.map (fun r => [r.text])).mapM (fun y => unionParse [Tab.ptrac_filter_Entry] (join [' '] y)) = rs.mapM FilterRow.read := by
  intro rs
  induction rs with
  | nil => intro _; rw [List.map_nil, List.mapM_nil, List.mapM_nil]
  | cons r rs ih =>
    intro hr
    rw [List.map_cons, List.mapM_cons, List.mapM_cons, ih (fun r h => hr r (by simp [h])), show join [' '] [r.text] = r.text from by simp [join],
      filter_entry (hr r (by simp))]

theorem filter_flat (rs : List FilterRow) : (rs.map (fun r => [r.text])).flatten = rs.map FilterRow.text := by
  induction rs with
  | nil => rfl
  | cons r rs ih => rw [List.map_cons, List.flatten_cons, ih]; rfl

theorem filter_words {hd : Str} (rs : List FilterRow) (hne : rs ≠ []) (hr : ∀ r ∈ rs, r.Ok) (hw : Words (hd :: rs.map FilterRow.text))
    (hrd : readHead ⟨.no, c!"filter", .no, .no⟩ hd = some []) :
    (match reMatch Tab.ptrac_Filter.re (hd ++ enc (rs.map FilterRow.text)) with | none => (.error .inp : Res Val) | some m => Tab.ptrac_Filter.build m) =
      readFilters rs := by
  have hfl := filter_flat rs
  have h := rows_read Tab.ptrac_Filter ⟨.no, c!"filter", .no, .no⟩ (.ty Tab.T_ptrac_filter_Entry) ⟨"variables", Tab.T_ptrac_filter_Entry, true, some .isNone⟩ [] rfl
    (by decide +kernel) rfl rfl (by simp) rfl (row_filter 2) (filter_facts 2).2.2 (row_filter 1) hd [] (rs.map (fun r => [r.text])) (by rw [hfl]; exact hw) hrd
    (by simpa using hne) (by
      intro y hy
      obtain ⟨r, hr', rfl⟩ := List.mem_map.1 hy
      exact ⟨filter_full (hr r hr') 2, trivial⟩) (by
      intro y hy
      obtain ⟨r, hr', rfl⟩ := List.mem_map.1 hy
      exact ⟨filter_full (hr r hr') 1, trivial⟩)
  have hpp : Tab.T_ptrac_filter_Entry.parse = unionParse [Tab.ptrac_filter_Entry] := by
    unfold Tab.T_ptrac_filter_Entry
    rw [asTy_parse]
  simp only [hpp] at h
  rw [filter_entries rs hr, hfl] at h
  refine h.trans ?_
  unfold readFilters
  cases rs.mapM FilterRow.read <;> rfl

end Inp
