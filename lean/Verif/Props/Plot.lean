import Verif.Outp.Plot
import Verif.Props.OutpFile
import Mathlib.Data.List.Perm.Subperm
/-!
# C83: the figures of a tally show every line once, under its place

A plot of a tally has one figure for each place (cell, or surface, or surface and angles); the title names the place, and the figure shows
the lines of the tally at that place, in order.
-/
namespace Props
open Py Outp Plot

/-- The title of a figure, by the class of the tally: it names the place. -/
def figureTitle : TallyKind → List Str → Str
  | .t1A, [a, b, c] | .t1B, [a, b, c] =>
    c!"Counts vs Bins\nsurface: " ++ a ++ c!" angle_from: " ++ b ++ c!" angle_to: " ++ c
  | .t2, [a] => c!"Counts vs Bins\nsurface: " ++ a
  | _, p => c!"Counts vs Bins\ncell: " ++ p.headD []

/-- The lines of a tally at a place, in order. -/
def linesAt (k : TallyKind) (t : Tally) (p : List Str) : List TLine := (t.subs.filter fun x => subPlace k x = p).flatMap (·.lines)

theorem mem_insertKey (k x : List Str) (l : List (List Str)) : x ∈ insertKey k l ↔ x = k ∨ x ∈ l := by
  induction l with
  | nil => simp [insertKey]
  | cons y l ih =>
    unfold insertKey
    by_cases h : k = y
    · rw [if_pos h, h]; simp
    · rw [if_neg h]
      by_cases h2 : leKey k y = true
      · rw [if_pos h2]; simp
      · rw [if_neg h2, List.mem_cons, ih, List.mem_cons]; tauto

theorem leStr_total (a b : Str) : leStr a b = true ∨ leStr b a = true := by
  induction a generalizing b with
  | nil => exact .inl rfl
  | cons x a ih =>
    cases b with
    | nil => exact .inr rfl
    | cons y b =>
      unfold leStr
      by_cases h1 : x.toNat < y.toNat
      · exact .inl (if_pos h1)
      · by_cases h2 : y.toNat < x.toNat
        · exact .inr (if_pos h2)
        · simp only [if_neg h1, if_neg h2]; exact ih b

theorem leStr_antisymm (a b : Str) (h : leStr a b = true) (h' : leStr b a = true) : a = b := by
  induction a generalizing b with
  | nil => cases b with
    | nil => rfl
    | cons => cases h'
  | cons x a ih =>
    cases b with
    | nil => cases h
    | cons y b =>
      unfold leStr at h h'
      by_cases h1 : x.toNat < y.toNat
      · rw [if_neg (by omega), if_pos h1] at h'; cases h'
      · by_cases h2 : y.toNat < x.toNat
        · rw [if_neg h1, if_pos h2] at h; cases h
        · rw [if_neg h1, if_neg h2] at h
          rw [if_neg h2, if_neg h1] at h'
          have hxy : x = y := Char.ext (UInt32.toNat_inj.1 (by change x.toNat = y.toNat; omega))
          rw [hxy, ih b h h']

theorem leStr_trans (a b c : Str) (h : leStr a b = true) (h' : leStr b c = true) : leStr a c = true := by
  induction a generalizing b c with
  | nil => rfl
  | cons x a ih =>
    cases b with
    | nil => cases h
    | cons y b =>
      cases c with
      | nil => cases h'
      | cons z c =>
        unfold leStr at h h' ⊢
        split at h
        · split at h'
          · rw [if_pos (by omega)]
          · split at h'
            · cases h'
            · rw [if_pos (by omega)]
        · split at h
          · cases h
          · split at h'
            · rw [if_pos (by omega)]
            · split at h'
              · cases h'
              · rw [if_neg (by omega), if_neg (by omega)]
                exact ih b c h h'

theorem leKey_total (a b : List Str) : leKey a b = true ∨ leKey b a = true := by
  induction a generalizing b with
  | nil => exact .inl rfl
  | cons x a ih =>
    cases b with
    | nil => exact .inr rfl
    | cons y b =>
      unfold leKey
      by_cases h : x = y
      · rw [if_pos h, if_pos h.symm]; exact ih b
      · rw [if_neg h, if_neg (Ne.symm h)]; exact leStr_total x y

theorem leKey_trans (a b c : List Str) (h : leKey a b = true) (h' : leKey b c = true) : leKey a c = true := by
  induction a generalizing b c with
  | nil => rfl
  | cons x a ih =>
    cases b with
    | nil => cases h
    | cons y b =>
      cases c with
      | nil => cases h'
      | cons z c =>
        unfold leKey at h h' ⊢
        by_cases h1 : x = y
        · rw [if_pos h1] at h
          subst h1
          by_cases h2 : x = z
          · rw [if_pos h2] at h' ⊢; exact ih b c h h'
          · rw [if_neg h2] at h' ⊢; exact h'
        · rw [if_neg h1] at h
          by_cases h2 : y = z
          · subst h2; rw [if_neg h1]; exact h
          · rw [if_neg h2] at h'
            by_cases h3 : x = z
            · subst h3; exact absurd (leStr_antisymm _ _ h h') h1
            · rw [if_neg h3]; exact leStr_trans _ _ _ h h'

/-- The keys are in order and different. -/
theorem insertKey_sorted (k : List Str) (l : List (List Str)) (h : l.Pairwise fun a b => leKey a b = true ∧ a ≠ b) :
    (insertKey k l).Pairwise fun a b => leKey a b = true ∧ a ≠ b := by
  have antisymm : ∀ a b, leKey a b = true → leKey b a = true → a = b := by
    intro a
    induction a with
    | nil => intro b _ h'; cases b with
      | nil => rfl
      | cons => cases h'
    | cons x a ih =>
      intro b h h'
      cases b with
      | nil => cases h
      | cons y b =>
        unfold leKey at h h'
        by_cases h1 : x = y
        · rw [if_pos h1] at h
          rw [if_pos h1.symm] at h'
          rw [h1, ih b h h']
        · rw [if_neg h1] at h
          rw [if_neg (Ne.symm h1)] at h'
          exact absurd (leStr_antisymm _ _ h h') h1
  induction l with
  | nil => simp [insertKey]
  | cons x l ih =>
    rw [List.pairwise_cons] at h
    unfold insertKey
    by_cases h1 : k = x
    · rw [if_pos h1]; exact List.pairwise_cons.2 h
    · rw [if_neg h1]
      by_cases h2 : leKey k x = true
      · rw [if_pos h2]
        refine List.pairwise_cons.2 ⟨?_, List.pairwise_cons.2 h⟩
        intro b hb
        rcases List.mem_cons.1 hb with rfl | hb
        · exact ⟨h2, h1⟩
        · have := h.1 b hb
          refine ⟨leKey_trans _ _ _ h2 this.1, ?_⟩
          rintro rfl
          exact h1 (antisymm _ _ h2 this.1)
      · rw [if_neg h2]
        refine List.pairwise_cons.2 ⟨?_, ih h.2⟩
        intro b hb
        rcases (mem_insertKey _ _ _).1 hb with rfl | hb
        · exact ⟨(leKey_total b x).resolve_left h2, fun e => h1 e.symm⟩
        · exact h.1 b hb

theorem foldl_keys (rows : List Row) (ks : List (List Str)) (h : ks.Pairwise fun a b => leKey a b = true ∧ a ≠ b) :
    (rows.foldl (fun ks r => insertKey r.place ks) ks).Pairwise (fun a b => leKey a b = true ∧ a ≠ b) ∧
      ∀ p, p ∈ rows.foldl (fun ks r => insertKey r.place ks) ks ↔ p ∈ ks ∨ ∃ r ∈ rows, r.place = p := by
  induction rows generalizing ks with
  | nil => exact ⟨h, fun p => by simp⟩
  | cons r rows ih =>
    obtain ⟨h1, h2⟩ := ih (insertKey r.place ks) (insertKey_sorted _ _ h)
    refine ⟨h1, fun p => ?_⟩
    rw [List.foldl_cons, h2, mem_insertKey]
    constructor
    · rintro ((rfl | h) | ⟨x, hx, e⟩)
      · exact .inr ⟨r, by simp, rfl⟩
      · exact .inl h
      · exact .inr ⟨x, by simp [hx], e⟩
    · rintro (h | ⟨x, hx, e⟩)
      · exact .inl (.inr h)
      · rcases List.mem_cons.1 hx with rfl | hx
        · exact .inl (.inl e.symm)
        · exact .inr ⟨x, hx, e⟩

theorem rows_at (k : TallyKind) (t : Tally) (p : List Str) :
    ((tallyRows k t).filter fun r => r.place = p).map (·.line) = linesAt k t p := by
  unfold tallyRows linesAt
  induction t.subs with
  | nil => rfl
  | cons x xs ih =>
    rw [List.flatMap_cons, List.filter_append, List.map_append, ih]
    by_cases h : subPlace k x = p
    · simp [h, List.filter_map, Function.comp_def]
    · simp [h, List.filter_map, Function.comp_def]

theorem kinds_spec : ∀ (bs : List Block) (d : List (Str × TallyKind)), (d.map (·.1) ++ (talliesOf bs).map fun p => tallyNumber p.2).Nodup →
    kinds bs d = d ++ (talliesOf bs).map fun p => (tallyNumber p.2, p.1)
  | [], d, _ => by simp [kinds, talliesOf]
  | .header _ :: bs, d, hn => kinds_spec bs d hn
  | .plain _ _ :: bs, d, hn => kinds_spec bs d hn
  | .tally k t :: bs, d, hn => by
    have hn' : (d.map (·.1) ++ tallyNumber t :: (talliesOf bs).map fun p => tallyNumber p.2).Nodup := hn
    have hnew : tallyNumber t ∉ d.map (·.1) := by
      intro hm
      exact (List.nodup_append.1 hn').2.2 _ hm (tallyNumber t) (by simp) rfl
    have he := kinds_spec bs (d ++ [(tallyNumber t, k)]) (by simpa using hn')
    unfold kinds
    show kinds bs (Outp.insert d (tallyNumber t) k) = _
    rw [insert_new _ _ _ hnew, he]
    simp [talliesOf]

theorem find_key {α β : Type} (key : α → Str) (val : α → β) (l : List α) (hn : (l.map key).Nodup) (x : α) (hx : x ∈ l) :
    ((l.map fun y => (key y, val y)).find? fun y => y.1 == key x).map (·.2) = some (val x) := by
  induction l with
  | nil => cases hx
  | cons y l ih =>
    rw [List.map_cons, List.nodup_cons] at hn
    rcases List.mem_cons.1 hx with rfl | hx
    · simp
    · have hne : key y ≠ key x := fun e => hn.1 (e ▸ List.mem_map_of_mem hx)
      rw [List.map_cons, List.find?_cons_of_neg (by simpa using hne)]
      exact ih hn.2 hx

theorem title_spec (k : TallyKind) (x : Sub) : title (names k) (subPlace k x) = figureTitle k (subPlace k x) := by
  cases k <;> simp [title, names, subPlace, figureTitle, label, join]

/-- **C83:** the figures of a tally are those of its places, each once and in order; every figure is titled with its place and shows the
lines of the tally at that place, in order.  (The hypotheses are those under which the file has tables at all, C44.) Missing:
files without tables, for which no figure is made (C44). -/
theorem C83_figures_partial (s : Str) (f : Outp.File) (h : outpParse s = .ok f)
    (hn : ((talliesOf f.blocks).map fun p => tallyNumber p.2).Nodup) (hl : ∀ p ∈ talliesOf f.blocks, ∀ x ∈ p.2.subs, HasTable x)
    (k : TallyKind) (t : Tally) (ht : (k, t) ∈ talliesOf f.blocks) :
    ∃ places : List (List Str), toShow f (tallyNumber t) = .ok (places.map fun p => ⟨figureTitle k p, linesAt k t p⟩) ∧ places.Nodup ∧
      (places.Pairwise fun a b => leKey a b = true) ∧ ∀ p, p ∈ places ↔ ∃ x ∈ t.subs, subPlace k x = p := by
  have e1 := C44_tables_partial s f h hn hl
  obtain ⟨k1, k2⟩ := foldl_keys (tallyRows k t) [] List.Pairwise.nil
  have hmem : ∀ p, p ∈ (tallyRows k t).foldl (fun ks r => insertKey r.place ks) [] ↔ ∃ x ∈ t.subs, subPlace k x = p := by
    intro p
    rw [k2]
    simp only [List.not_mem_nil, false_or, tallyRows, List.mem_flatMap, List.mem_map]
    constructor
    · rintro ⟨r, ⟨x, hx, l, _, rfl⟩, rfl⟩
      exact ⟨x, hx, rfl⟩
    · rintro ⟨x, hx, rfl⟩
      obtain ⟨l, hl'⟩ := List.exists_mem_of_ne_nil _ (hl _ ht x hx).1
      exact ⟨⟨l, lineNumbers l, subPlace k x⟩, ⟨x, hx, l, hl', rfl⟩, rfl⟩
  refine ⟨_, ?_, k1.imp fun h => h.2, k1.imp fun h => h.1, hmem⟩
  have hk := find_key (fun p : TallyKind × Tally => tallyNumber p.2) (fun p => p.1) _ hn (k, t) ht
  have ht' := find_key (fun p : TallyKind × Tally => tallyNumber p.2) (fun p => (⟨tallyRows p.1 p.2, tallyCommon p.2⟩ : Table)) _ hn (k, t) ht
  unfold toShow
  rw [e1]
  simp only [Cli.lookup, ht', kinds_spec f.blocks [] (by simpa using hn), List.nil_append, hk, Option.getD_some]
  unfold figures groups
  rw [List.map_map]
  congr 1
  refine List.map_congr_left fun p hp => ?_
  obtain ⟨x, _, rfl⟩ := (hmem p).1 hp
  simp only [Function.comp_def, title_spec, rows_at]

theorem lines_step (k : TallyKind) (x : Sub) (xs : List Sub) (places : List (List Str)) (h1 : places.Nodup) (hp : subPlace k x ∈ places) :
    (places.flatMap fun p => ((x :: xs).filter fun y => subPlace k y = p).flatMap (·.lines)).Perm
      (x.lines ++ places.flatMap fun p => (xs.filter fun y => subPlace k y = p).flatMap (·.lines)) := by
  induction places with
  | nil => cases hp
  | cons q places ih =>
    rw [List.nodup_cons] at h1
    rw [List.flatMap_cons, List.flatMap_cons]
    by_cases hq : subPlace k x = q
    · have hrest : (places.flatMap fun p => ((x :: xs).filter fun y => subPlace k y = p).flatMap (·.lines)) =
          places.flatMap fun p => (xs.filter fun y => subPlace k y = p).flatMap (·.lines) := by
        refine List.flatMap_congr fun p hp' => ?_
        rw [List.filter_cons_of_neg]
        simp only [decide_eq_true_eq]
        rintro rfl
        exact h1.1 (hq ▸ hp')
      rw [List.filter_cons_of_pos (by simpa using hq), List.flatMap_cons, List.append_assoc, hrest]
    · rw [List.filter_cons_of_neg (by simpa using hq)]
      have := ih h1.2 ((List.mem_cons.1 hp).resolve_left hq)
      refine (List.Perm.append_left _ this).trans ?_
      rw [← List.append_assoc, ← List.append_assoc]
      exact List.Perm.append_right _ List.perm_append_comm

theorem linesAt_perm (k : TallyKind) (t : Tally) (places : List (List Str)) (h1 : places.Nodup) (h2 : ∀ p, p ∈ places ↔ ∃ x ∈ t.subs, subPlace k x = p) :
    (places.flatMap (linesAt k t)).Perm (t.subs.flatMap (·.lines)) := by
  have key : ∀ (xs : List Sub), (∀ x ∈ xs, subPlace k x ∈ places) →
      (places.flatMap fun p => (xs.filter fun x => subPlace k x = p).flatMap (·.lines)).Perm (xs.flatMap (·.lines)) := by
    intro xs
    induction xs with
    | nil => intro _; simp
    | cons x xs ih =>
      intro hx
      rw [List.flatMap_cons]
      exact (lines_step k x xs places h1 (hx x (by simp))).trans
        (List.Perm.append_left _ (ih fun y hy => hx y (List.mem_cons_of_mem _ hy)))
  exact key t.subs fun x hx => (h2 _).2 ⟨x, hx, rfl⟩

/-- **C83, no line is lost or shown twice.** Missing: files without tables, for which no figure is made (C44). -/
theorem C83_lines_partial (s : Str) (f : Outp.File) (h : outpParse s = .ok f)
    (hn : ((talliesOf f.blocks).map fun p => tallyNumber p.2).Nodup) (hl : ∀ p ∈ talliesOf f.blocks, ∀ x ∈ p.2.subs, HasTable x)
    (k : TallyKind) (t : Tally) (ht : (k, t) ∈ talliesOf f.blocks) :
    ∃ figs, toShow f (tallyNumber t) = .ok figs ∧ (figs.flatMap (·.rows)).Perm (t.subs.flatMap (·.lines)) := by
  obtain ⟨places, h1, h2, -, h3⟩ := C83_figures_partial s f h hn hl k t ht
  refine ⟨_, h1, ?_⟩
  rw [List.flatMap_map]
  exact linesAt_perm k t places h2 h3

/-- **C83, unknown numbers:** when the file has tables, a number that is not that of a tally raises `CliError`. -/
theorem C83_unknown (s : Str) (f : Outp.File) (h : outpParse s = .ok f)
    (hn : ((talliesOf f.blocks).map fun p => tallyNumber p.2).Nodup) (hl : ∀ p ∈ talliesOf f.blocks, ∀ x ∈ p.2.subs, HasTable x)
    (n : Str) (hno : ∀ p ∈ talliesOf f.blocks, tallyNumber p.2 ≠ n) : toShow f n = .error .cli := by
  unfold toShow
  rw [C44_tables_partial s f h hn hl]
  have : Cli.lookup ((talliesOf f.blocks).map fun p => (tallyNumber p.2, (⟨tallyRows p.1 p.2, tallyCommon p.2⟩ : Table))) n = none := by
    unfold Cli.lookup
    rw [Option.map_eq_none_iff, List.find?_eq_none]
    simp only [List.mem_map]
    rintro x ⟨p, hp, rfl⟩
    simpa using hno p hp
  simp only [this]

/-- The hypotheses are met by the file of C44. -/
example : ∃ k t, (k, t) ∈ talliesOf exOutpFile.blocks ∧ tallyNumber t = c!"4" ∧
    (toShow exOutpFile c!"4").map (fun l => l.map fun x => x.rows.length) = .ok [2, 2] := by
  refine ⟨.t4, exTally4, by decide +kernel, by decide +kernel, by decide +kernel⟩

/-- **C83 is violated for figures per subtally:** subtallies at the same place share a figure, so that there are fewer figures than
subtallies. -/
theorem C83_shared_violated (s : Str) (f : Outp.File) (h : outpParse s = .ok f)
    (hn : ((talliesOf f.blocks).map fun p => tallyNumber p.2).Nodup) (hl : ∀ p ∈ talliesOf f.blocks, ∀ x ∈ p.2.subs, HasTable x)
    (k : TallyKind) (t : Tally) (ht : (k, t) ∈ talliesOf f.blocks) (hd : ¬ (t.subs.map (subPlace k)).Nodup) :
    ∃ figs, toShow f (tallyNumber t) = .ok figs ∧ figs.length < t.subs.length := by
  obtain ⟨places, h1, h2, -, h3⟩ := C83_figures_partial s f h hn hl k t ht
  refine ⟨_, h1, ?_⟩
  rw [List.length_map]
  have hsub : places.Subperm (t.subs.map (subPlace k)) := List.subperm_of_subset h2 fun p hp => by
    obtain ⟨x, hx, rfl⟩ := (h3 p).1 hp
    exact List.mem_map_of_mem hx
  have hle := hsub.length_le
  rw [List.length_map] at hle
  rcases Nat.lt_or_eq_of_le hle with h | h
  · exact h
  · exact absurd ((hsub.perm_of_length_le (by rw [List.length_map]; omega)).nodup_iff.1 h2) hd

end Props
