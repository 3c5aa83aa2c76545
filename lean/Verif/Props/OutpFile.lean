import Verif.Outp.OneLemmas

/-! C44: the blocks of an output file are neither lost nor overwritten. C63: output files round trip. -/

namespace Props
open Py Ptrac Outp
open Outp (File Header)

set_option maxRecDepth 100000

/-! ### The specification: where blocks begin -/

/-- A line of the text, other than the first, begins with such a character. -/
def LineStarts (p : Char → Bool) (s : Str) : Prop := ∃ u c v, s = u ++ '\n' :: c :: v ∧ p c = true

/-- The text of a file: what is before the first line that begins with a digit, and pieces each of which begins with a line that begins
with `1`, and only that line. -/
def fileText (H : Str) (ps : List Str) : Str := H ++ ps.flatMap fun p => '\n' :: '1' :: p

theorem noAfter_iff {p : Char → Bool} {s : Str} : NoAfter p s ↔ ¬ LineStarts p s := by
  constructor
  · rintro h ⟨u, c, v, e, hc⟩
    rw [h u c v e] at hc; cases hc
  · intro h u c v e
    cases hc : p c with
    | false => rfl
    | true => exact absurd ⟨u, c, v, e, hc⟩ h

theorem readBlock_bare (r : Str) (h : ∀ c t, r = c :: t → c = '\n') : readBlock ('1' :: r) = none := by
  cases hb : readBlock ('1' :: r) with
  | none => rfl
  | some b =>
    exfalso
    obtain ⟨k, hk⟩ := readBlock_iff.1 hb
    have hx : ∀ x y : Char, x ≠ '\n' → (('1' :: r).take 3 = ['1', x, y]) → False := by
      intro x y hx e
      cases r with
      | nil => simp at e
      | cons c t =>
        have := h c t rfl
        subst this
        simp at e
        exact hx e.1.symm
    cases k with
    | header =>
      obtain ⟨c, r', e, hc⟩ := readAs_first hk
      cases e
      rcases hc with ⟨_, hc⟩ | ⟨hc, _⟩
      · exact absurd hc (by decide)
      · exact hc rfl
    | plain k =>
      obtain ⟨x, hx', _⟩ := readAs_plain hk
      have := plain_code hx'
      cases k <;> exact hx _ _ (by decide) this
    | tally k =>
      obtain ⟨x, hx', _⟩ := readAs_tally hk
      exact hx _ _ (by decide) (tally_code hx')

theorem readPieces (ps : List Str) : ((ps.filterMap fun p => if p = [] then none else readBlock ('1' :: p)) : List Block) =
    ps.filterMap fun p => readBlock ('1' :: p) := by
  congr 1
  funext p
  split
  · next h => rw [h, readBlock_bare [] (by intro c t e; cases e)]
  · rfl

/-- C44: whatever the pieces are, every piece that some class of blocks reads is in the file, once and in order, as what that class
reads; the other pieces are left out and nothing else is read. -/
theorem C44_blocks_kept (H : Str) (ps : List Str) (h0 : ps ≠ []) (hH : ¬ LineStarts isDigit H) (hp : ∀ p ∈ ps, ¬ LineStarts (· == '1') p) :
    outpParse (fileText H ps) = (headerParse (H ++ ['\n'])).map fun h => ⟨h, ps.filterMap fun p => readBlock ('1' :: p)⟩ := by
  obtain ⟨p, qs, rfl⟩ := List.exists_cons_of_ne_nil h0
  have hH' : NoAfter isDigit (H ++ ['\n']) := by
    intro u c v e
    have hH := noAfter_iff.2 hH
    cases hv : v.reverse with
    | nil =>
      have : v = [] := by simpa using hv
      subst this
      have e2 : H ++ ['\n'] = (u ++ ['\n']) ++ [c] := by simpa using e
      have := List.append_inj_right' e2 rfl
      cases this; decide
    | cons x r =>
      have : v = r.reverse ++ [x] := by
        have := congrArg List.reverse hv; simpa using this
      subst this
      have e2 : H ++ ['\n'] = (u ++ '\n' :: c :: r.reverse) ++ [x] := by simpa using e
      exact hH u c r.reverse (List.append_inj_left' e2 rfl)
  have hcut : cutDigit (fileText H (p :: qs)) = some (H, (p :: qs).flatMap fun p => '\n' :: '1' :: p) :=
    cutDigit_some hH' (by decide)
  have hs : splitOne ((p :: qs).flatMap fun p => '\n' :: '1' :: p) = [] :: p :: qs :=
    splitOne_pieces fun q hq => noAfter_iff.2 (hp q hq)
  unfold outpParse
  rw [hcut]
  simp only [readBlocks, hs, readPieces]
  congr 1

/-- C44: a piece is read as a block exactly when one of the classes reads it, and as what that class reads: no class takes the blocks
of another. -/
theorem C44_no_shadowing (s : Str) (b : Block) : readBlock s = some b ↔ ∃ k, readAs k s = .ok b := readBlock_iff

theorem C44_one_class {k k' : Kind} {s : Str} {b b' : Block} (h : readAs k s = .ok b) (h' : readAs k' s = .ok b') : k = k' ∧ b = b' := by
  have := kind_unique h h'
  subst this
  rw [h] at h'
  cases h'
  exact ⟨rfl, rfl⟩

/-- The converse: every file that is read is a header, possibly a text that begins with another digit, and such pieces. -/
theorem file_inv {s : Str} {f : File} (h : outpParse s = .ok f) : ∃ H X ps, s = H ++ X ++ ps.flatMap (fun p => '\n' :: '1' :: p) ∧
    (∀ p ∈ ps, NoAfter isOne p) ∧ f.blocks = ps.filterMap (fun p => readBlock ('1' :: p)) ∧
    (∃ y, NoAfter isDigit y ∧ headerParse y = .ok f.header ∧ (y = H ++ ['\n'] ∨ y = H ∧ X = [] ∧ ps = [])) ∧
    (X = [] ∨ ∃ d r, X = '\n' :: d :: r ∧ isDigit d = true ∧ d ≠ '1' ∧ NoAfter isOne X) := by
  unfold outpParse at h
  cases hc : cutDigit s with
  | none =>
    rw [hc] at h
    cases hh : headerParse s with
    | error e => rw [hh] at h; cases h
    | ok x =>
      rw [hh] at h; cases h
      refine ⟨s, [], [], by simp, by simp, rfl, ⟨s, ?_, hh, .inr ⟨rfl, rfl, rfl⟩⟩, .inl rfl⟩
      intro u c v e
      cases hd : isDigit c with
      | false => rfl
      | true =>
        exfalso
        -- the first such place would be found
        have : ∀ u : Str, cutDigit (u ++ '\n' :: c :: v) ≠ none := by
          intro u
          induction u with
          | nil => show cutDigit ('\n' :: c :: v) ≠ none; unfold cutDigit; simp [hd]
          | cons a u ih =>
            intro hn
            apply ih
            rw [List.cons_append] at hn
            unfold cutDigit at hn
            split at hn
            · next d' t' e' =>
              split at hn
              · cases hn
              · exact Option.map_eq_none_iff.1 hn
            · exact Option.map_eq_none_iff.1 hn
        exact this u (e ▸ hc)
  | some p =>
    obtain ⟨a, t⟩ := p
    rw [hc] at h
    obtain ⟨rfl, hno, d, r, rfl, hd⟩ := cutDigit_spec hc
    simp only at h
    cases hh : headerParse (a ++ ['\n']) with
    | error e => rw [hh] at h; cases h
    | ok x =>
      rw [hh] at h; cases h
      obtain ⟨h1, q, qs, h2, h3⟩ := splitOne_spec ('\n' :: d :: r)
      refine ⟨a, q, qs, by rw [h3, List.append_assoc], fun p hp => h1 p (by rw [h2]; simp [hp]), ?_, ⟨_, hno, hh, .inl rfl⟩, ?_⟩
      · have hq : readBlock ('1' :: q) = none := by
          apply readBlock_bare
          intro c t e
          rw [e] at h3
          exact (List.cons.inj h3).1.symm
        show readBlocks _ = _
        rw [readBlocks, readPieces, h2, List.filterMap_cons, hq]
      · cases q with
        | nil => exact .inl rfl
        | cons c q' =>
          have hqn := h1 (c :: q') (by rw [h2]; simp)
          have hc : c = '\n' := (List.cons.inj h3).1.symm
          subst hc
          cases q' with
          | nil =>
            exfalso
            -- the piece would be a single line end before another
            cases qs with
            | nil => cases h3
            | cons z zs =>
              have h4 : '\n' :: d :: r = '\n' :: '\n' :: '1' :: (z ++ zs.flatMap fun p => '\n' :: '1' :: p) := h3
              simp only [List.cons.injEq, true_and] at h4
              rw [h4.1] at hd
              exact absurd hd (by decide)
          | cons d' q'' =>
            have h4 : '\n' :: d :: r = '\n' :: d' :: (q'' ++ qs.flatMap fun p => '\n' :: '1' :: p) := h3
            simp only [List.cons.injEq, true_and] at h4
            have hd' := h4.1
            subst hd'
            refine .inr ⟨d, q'', rfl, hd, ?_, hqn⟩
            have := hqn [] d q'' rfl
            simpa [isOne] using this

/-- C44: nothing is read that is not there: every block of a file that was read is what one of the classes reads from a piece of
the text that begins with a line that begins with `1`, the pieces being in the order of the blocks. -/
theorem C44_blocks_there {s : Str} {f : File} (h : outpParse s = .ok f) : ∃ A ps, s = fileText A ps ∧ (∀ p ∈ ps, ¬ LineStarts (· == '1') p) ∧
    f.blocks = ps.filterMap fun p => readBlock ('1' :: p) := by
  obtain ⟨H, X, ps, rfl, hp, hb, _, _⟩ := file_inv h
  exact ⟨H ++ X, ps, rfl, fun p hq => noAfter_iff.1 (hp p hq), hb⟩

/-! ### Tables -/

/-- The tallies among the blocks, with their numbers. -/
def talliesOf : List Block → List (TallyKind × Tally)
  | [] => []
  | .tally k t :: bs => (k, t) :: talliesOf bs
  | _ :: bs => talliesOf bs

/-- The number of a tally, without blanks. -/
def tallyNumber (t : Tally) : Str := strip (t.vals.getD 0 [])

/-- What is said of every row of a tally: its number, type, particles and histories, without blanks. -/
def tallyCommon (t : Tally) : List Str := [t.vals.getD 0 [], t.vals.getD 2 [], t.vals.getD 3 [], t.vals.getD 1 []].map strip

/-- Where the lines of a subtally belong: the surface and the two angles of a current tally, the surface or cell of the others. -/
def subPlace (k : TallyKind) (x : Sub) : List Str :=
  (if k = .t1A ∨ k = .t1B then [0, 1, 2] else [0]).map fun i => strip (x.vals.getD i [])

/-- The numbers of a line: bin, count and error. -/
def lineNumbers (l : TLine) : List DecVal := [l.bucket, l.count, l.error].filterMap floatParse

/-- The rows of a tally: one for each line of each subtally, in order, with the place of the subtally. -/
def tallyRows (k : TallyKind) (t : Tally) : List Row := t.subs.flatMap fun x => x.lines.map fun l => ⟨l, lineNumbers l, subPlace k x⟩

/-- A subtally can be made a table: it has lines, and all texts of its lines are numbers (C103 says which these are). -/
def HasTable (x : Sub) : Prop := x.lines ≠ [] ∧ ∀ l ∈ x.lines, ∀ s ∈ [l.bucket, l.count, l.error], (floatParse s).isSome = true

instance (x : Sub) : Decidable (HasTable x) := by unfold HasTable; infer_instance

theorem cells_spec {l : TLine} (h : ∀ s ∈ [l.bucket, l.count, l.error], (floatParse s).isSome = true) : l.cells = some (lineNumbers l) := by
  obtain ⟨a, ha⟩ := Option.isSome_iff_exists.1 (h l.bucket (by simp))
  obtain ⟨b, hb⟩ := Option.isSome_iff_exists.1 (h l.count (by simp))
  obtain ⟨c, hc⟩ := Option.isSome_iff_exists.1 (h l.error (by simp))
  simp [TLine.cells, lineNumbers, ha, hb, hc]

theorem lineRows_spec (p : List Str) : ∀ {ls : List TLine}, (∀ l ∈ ls, ∀ s ∈ [l.bucket, l.count, l.error], (floatParse s).isSome = true) →
    lineRows p ls = .ok (ls.map fun l => ⟨l, lineNumbers l, p⟩)
  | [], _ => rfl
  | l :: ls, h => by
    rw [lineRows, cells_spec (h l (by simp)), lineRows_spec p (fun y hy => h y (by simp [hy]))]
    rfl

theorem place_spec (k : TallyKind) (x : Sub) : x.place k = subPlace k x := by cases k <;> rfl

theorem table_ok {k : TallyKind} {t : Tally} (h0 : t.subs ≠ []) (hl : ∀ x ∈ t.subs, HasTable x) :
    t.table k = .ok ⟨tallyRows k t, tallyCommon t⟩ := by
  have hm : t.subs.mapM (Sub.rows k) = .ok (t.subs.map fun x => x.lines.map fun l => ⟨l, lineNumbers l, subPlace k x⟩) := by
    generalize t.subs = xs at hl
    induction xs with
    | nil => rfl
    | cons x xs ih =>
      rw [List.mapM_cons, ih fun y hy => hl y (by simp [hy])]
      unfold Sub.rows
      rw [if_neg (hl x (by simp)).1, place_spec, lineRows_spec _ (hl x (by simp)).2]
      rfl
  unfold Tally.table
  rw [hm]
  show (if t.subs.map _ = [] then _ else _) = _
  rw [if_neg (by simpa using h0)]
  rfl

theorem insert_new {β : Type} (d : List (Str × β)) (k : Str) (v : β) (h : k ∉ d.map (·.1)) : Outp.insert d k v = d ++ [(k, v)] := by
  unfold Outp.insert
  rw [if_neg]
  simp only [List.any_eq_true, beq_iff_eq, not_exists, not_and]
  intro p hp e
  exact h (e ▸ List.mem_map_of_mem hp)

theorem tables_spec : ∀ (bs : List Block) (d : List (Str × Table)), (∀ p ∈ talliesOf bs, p.2.subs ≠ [] ∧ ∀ x ∈ p.2.subs, HasTable x) →
    (d.map (·.1) ++ (talliesOf bs).map fun p => tallyNumber p.2).Nodup →
    tables bs d = .ok (d ++ (talliesOf bs).map fun p => (tallyNumber p.2, ⟨tallyRows p.1 p.2, tallyCommon p.2⟩))
  | [], d, _, _ => by simp [tables, talliesOf]
  | .header _ :: bs, d, h, hn => tables_spec bs d h hn
  | .plain _ _ :: bs, d, h, hn => tables_spec bs d h hn
  | .tally k t :: bs, d, h, hn => by
    have ht := h (k, t) (by simp [talliesOf])
    have hT := table_ok (k := k) ht.1 ht.2
    have hn' : (d.map (·.1) ++ tallyNumber t :: (talliesOf bs).map fun p => tallyNumber p.2).Nodup := hn
    have hnew : tallyNumber t ∉ d.map (·.1) := by
      intro hm
      have := (List.nodup_append.1 hn').2.2 _ hm (tallyNumber t) (by simp)
      exact this rfl
    have he := tables_spec bs (d ++ [(tallyNumber t, ⟨tallyRows k t, tallyCommon t⟩)]) (fun p hp => h p (by simp [talliesOf, hp])) (by
      simpa using hn')
    unfold tables
    rw [hT]
    show tables bs (Outp.insert d (tallyNumber t) ⟨tallyRows k t, tallyCommon t⟩) = _
    rw [insert_new _ _ _ hnew, he]
    simp [talliesOf]

/-- C44 (partial): the tables have one entry for each tally, in order and under its number, with one row for each line of each of its
subtallies, provided that the numbers differ and that every subtally has a line and its texts are numbers. Missing: files
with two tallies of one number or a subtally without lines, for which the claim is false (`C44_tables_overwritten`,
`C44_tables_empty`). -/
theorem C44_tables_partial (s : Str) (f : File) (h : outpParse s = .ok f) (hn : ((talliesOf f.blocks).map fun p => tallyNumber p.2).Nodup)
    (hl : ∀ p ∈ talliesOf f.blocks, ∀ x ∈ p.2.subs, HasTable x) :
    tables f.blocks [] = .ok ((talliesOf f.blocks).map fun p => (tallyNumber p.2, ⟨tallyRows p.1 p.2, tallyCommon p.2⟩)) := by
  have hsubs : ∀ p ∈ talliesOf f.blocks, p.2.subs ≠ [] := by
    have hmem : ∀ (bs : List Block) (p), p ∈ talliesOf bs → Block.tally p.1 p.2 ∈ bs := by
      intro bs
      induction bs with
      | nil => intro p hp; cases hp
      | cons b bs ih =>
        intro p hp
        cases b with
        | header => exact List.mem_cons_of_mem _ (ih p hp)
        | plain => exact List.mem_cons_of_mem _ (ih p hp)
        | tally k t =>
          rcases List.mem_cons.1 hp with rfl | hp
          · exact List.mem_cons_self
          · exact List.mem_cons_of_mem _ (ih p hp)
    intro p hp
    have hb := hmem _ p hp
    obtain ⟨A, ps, _, _, e⟩ := C44_blocks_there h
    rw [e] at hb
    obtain ⟨q, _, hq⟩ := List.mem_filterMap.1 hb
    obtain ⟨k, hk⟩ := readBlock_iff.1 hq
    cases k with
    | header => obtain ⟨x, _, e⟩ := readAs_header hk; cases e
    | plain k => obtain ⟨x, _, e⟩ := readAs_plain hk; cases e
    | tally k =>
      obtain ⟨x, hx, e⟩ := readAs_tally hk
      cases e
      exact C62_tally_subs _ (by cases p.1 <;> simp [TallyKind.table, tallies]) _ _ hx
  simpa using tables_spec f.blocks [] (fun p hp => ⟨hsubs p hp, hl p hp⟩) (by simpa using hn)

/-! ### Round trip -/

/-- What must hold of a tally for it to be read back (C62): every subtally has a line, and there is no message. -/
def Block.Plain : Block → Prop
  | .tally k t => (∀ x ∈ t.subs, x.lines ≠ []) ∧ message k.table t = []
  | _ => True

theorem block_reread {s : Str} {b : Block} (h : readBlock s = some b) (hp : Block.Plain b) (h1 : s.head? = some '1') (hs : nl1 false s = true) :
    ∃ r, b.str = '1' :: r ∧ readBlock b.str = some b ∧ nl1 false b.str = true := by
  obtain ⟨k, hk⟩ := readBlock_iff.1 h
  have hfirst : ∀ {b' : Block} {k : Kind}, k ≠ .header → readAs k b'.str = .ok b' → ∃ r, b'.str = '1' :: r := by
    intro b' k hne hb
    obtain ⟨c, r, e, hc⟩ := readAs_first hb
    rcases hc with ⟨hc, _⟩ | ⟨_, rfl⟩
    · exact absurd hc hne
    · exact ⟨r, e⟩
  cases k with
  | header =>
    obtain ⟨c, r, rfl, hc⟩ := readAs_first hk
    rcases hc with ⟨_, hc⟩ | ⟨hc, _⟩
    · cases h1; exact absurd hc (by decide)
    · exact absurd rfl hc
  | plain k =>
    obtain ⟨x, hx, rfl⟩ := readAs_plain hk
    have hr : readAs (.plain k) (Block.plain k x).str = .ok (.plain k x) := by
      rw [readAs]
      show (blockParse k.table (blockStr k.table x)).map _ = _
      rw [C61_blocks_reread k.table (by cases k <;> simp [PlainKind.table, plainBlocks]) s x hx]
      rfl
    obtain ⟨r, e⟩ := hfirst (by simp) hr
    exact ⟨r, e, readBlock_iff.2 ⟨_, hr⟩, plain_nl1 hx hs⟩
  | tally k =>
    obtain ⟨t, ht, rfl⟩ := readAs_tally hk
    have hr : readAs (.tally k) (Block.tally k t).str = .ok (.tally k t) := by
      rw [readAs]
      show (tallyParse k.table (t.str k.table)).map _ = _
      rw [C62_tally_reread_partial k.table (by cases k <;> simp [TallyKind.table, tallies]) s t ht hp.1 hp.2]
      rfl
    obtain ⟨r, e⟩ := hfirst (by simp) hr
    exact ⟨r, e, readBlock_iff.2 ⟨_, hr⟩, tallyKind_nl1 ht hp.1 hp.2 hs⟩

theorem pieces_str : ∀ {bs : List Block}, (∀ b ∈ bs, ∃ r, b.str = '1' :: r ∧ readBlock b.str = some b ∧ nl1 false b.str = true) →
    ∃ ps : List Str, ps.length = bs.length ∧ (∀ p ∈ ps, NoAfter isOne p) ∧ (ps.filterMap fun p => readBlock ('1' :: p)) = bs ∧
      (bs = [] ∨ '\n' :: joinLines (bs.map Block.str) = ps.flatMap fun p => '\n' :: '1' :: p)
  | [], _ => ⟨[], rfl, by simp, rfl, .inl rfl⟩
  | b :: bs, h => by
    obtain ⟨ps, h1, h2, h3, h4⟩ := pieces_str (bs := bs) fun c hc => h c (by simp [hc])
    obtain ⟨r, e, hr, hn⟩ := h b (by simp)
    refine ⟨r :: ps, by simp [h1], ?_, ?_, .inr ?_⟩
    · intro p hp
      rcases List.mem_cons.1 hp with rfl | hp
      · rw [e] at hn
        exact noAfter_tail (noAfter_nl1.2 hn)
      · exact h2 p hp
    · rw [List.filterMap_cons, ← e, hr, h3]
    · cases bs with
      | nil =>
        have : ps = [] := by simpa using h1
        subst this
        simp [joinLines, e]
      | cons c cs =>
        rcases h4 with h4 | h4
        · cases h4
        · rw [List.flatMap_cons, ← h4]
          show '\n' :: (b.str ++ '\n' :: joinLines ((c :: cs).map Block.str)) = _
          rw [e]
          simp

/-- C63 (partial): a file that was read is read again from what it prints, with the same header and the same blocks in the same
order, provided that every subtally has a line and no tally has a message. Missing: tallies with a message, for which the
claim is false (`C63_file_violated`). -/
theorem C63_file_reread_partial (s : Str) (f : File) (h : outpParse s = .ok f) (hp : ∀ b ∈ f.blocks, Block.Plain b) :
    outpParse f.str = .ok f := by
  obtain ⟨H, X, ps, rfl, hps, hb, ⟨y, hy, hh, _⟩, _⟩ := file_inv h
  have hall : ∀ b ∈ f.blocks, ∃ r, b.str = '1' :: r ∧ readBlock b.str = some b ∧ nl1 false b.str = true := by
    intro b hbm
    have hpb := hp b hbm
    rw [hb] at hbm
    obtain ⟨p, hpm, hr⟩ := List.mem_filterMap.1 hbm
    refine block_reread hr hpb rfl ?_
    exact noAfter_nl1.1 (noAfter_cons (hps p hpm) (fun e => absurd e (by decide)))
  obtain ⟨qs, h1, h2, h3, h4⟩ := pieces_str hall
  have hh2 := header_reread hh
  have hno := header_noDigit hh hy
  obtain ⟨hd, bs⟩ := f
  simp only at h1 h3 h4 hh2 hno
  have hend : ∃ K, hd.str = K ++ ['\n'] := by
    refine ⟨c!"          Code Name & Version = " ++ hd.name ++ c!"\n  \n" ++ hd.logo ++ c!"  \n" ++ hd.box ++ c!"  ", ?_⟩
    unfold Header.str
    simp
  obtain ⟨K, hK⟩ := hend
  rcases h4 with rfl | h4
  · show outpParse (hd.str ++ joinLines []) = _
    unfold outpParse
    rw [joinLines, List.append_nil, cutDigit_none hno, ]
    simp only [hh2]
    rfl
  · cases qs with
    | nil => cases h4
    | cons q qs =>
      have hs : File.str ⟨hd, bs⟩ = fileText K (q :: qs) := by
        unfold File.str fileText
        rw [← h4]
        simp only
        rw [hK]
        simp
      rw [hs, C44_blocks_kept K (q :: qs) (by simp) (noAfter_iff.1 (noAfter_left (hK ▸ hno))) (fun p hp => noAfter_iff.1 (h2 p hp)),
        ← hK, hh2, h3]
      rfl

/-! ### A file -/

def exOutpHeader : Header := ⟨c!"MCNP6, 1.0",
  c!"     _/      _/        _/_/_/       _/      _/       _/_/_/         _/_/_/\n    _/_/  _/_/      _/             _/_/    _/       _/    _/     _/       \n   _/  _/  _/      _/             _/  _/  _/       _/_/_/       _/_/_/    \n  _/      _/      _/             _/    _/_/       _/           _/    _/   \n _/      _/        _/_/_/       _/      _/       _/             _/_/      \n",
  c!"  +---------------------------------------------------------------------+\n  | Copyright                                                           |\n  +---------------------------------------------------------------------+\n"⟩

def exOutpFile : File := ⟨exOutpHeader, [.plain .mcnp mcnpVals, .plain .neutron activityVals, .tally .t4 exTally4, .tally .t2 { exTally2 with vals := exTally2.vals.set 0 c!"       2" }]⟩

/-- The hypotheses of `C63_file_reread_partial` and `C44_tables_partial` are met by a file with four blocks, two of them tallies, and
a table no class knows (which is dropped). -/
example : outpParse exOutpFile.str = .ok exOutpFile ∧ outpParse (exOutpFile.str ++ c!"\n1cells\n 1 2 3\n") = .ok exOutpFile ∧
    ((talliesOf exOutpFile.blocks).map fun p => tallyNumber p.2) = [c!"4", c!"2"] := by decide +kernel

example : ∀ b ∈ exOutpFile.blocks, Block.Plain b := by
  simp only [exOutpFile, List.mem_cons, List.not_mem_nil, or_false]
  rintro b (rfl | rfl | rfl | rfl)
  · trivial
  · trivial
  · exact ⟨by decide +kernel, by decide +kernel⟩
  · exact ⟨by decide +kernel, by decide +kernel⟩

example : (tables exOutpFile.blocks []).map (fun d => d.map fun p => (p.1, p.2.rows.length)) = .ok [(c!"4", 4), (c!"2", 2)] := by decide +kernel

/-- The text of the file has pieces as in `C44_blocks_kept`. -/
example : ∃ H ps, ps.length = 4 ∧ exOutpFile.str = fileText H ps ∧ cutDigit exOutpFile.str = some (H, ps.flatMap fun p => '\n' :: '1' :: p) := by
  refine ⟨exOutpHeader.str.dropLast, exOutpFile.blocks.map fun b => b.str.tail, ?_⟩
  decide +kernel

/-- C44 fails for a tally that is in the file twice (as in a file with intermediate results): only the last one is in the tables. -/
theorem C44_tables_overwritten : ∃ s f, outpParse s = .ok f ∧ (talliesOf f.blocks).length = 2 ∧ (∀ p ∈ talliesOf f.blocks, ∀ x ∈ p.2.subs, HasTable x) ∧
    (tables f.blocks []).map (·.length) = .ok 1 := by
  let f : File := ⟨exOutpHeader, [.tally .t4 exTally4, .tally .t2 exTally2]⟩
  refine ⟨f.str, f, ?_⟩
  decide +kernel

/-- C44 fails for a subtally without lines: no table at all is made. -/
theorem C44_tables_empty : ∃ s f, outpParse s = .ok f ∧ (talliesOf f.blocks).length = 1 ∧ tables f.blocks [] = .error .value := by
  refine ⟨exOutpHeader.str.dropLast ++ '\n' ::
    partsText (exTally4.vals.set 6 c!" cell  4\n      energy   \n  1.0000E-02 0.0 0.0\n      total      0.0 0.0\n\n") tally4.parts,
    ⟨exOutpHeader, [.tally .t4 ⟨exTally4.vals, [⟨[c!"4", [], c!"0.0 0.0"], []⟩]⟩]⟩, ?_⟩
  decide +kernel

/-- C63 fails for a tally with a message: the tally is lost. -/
theorem C63_file_violated : ∃ s f, outpParse s = .ok f ∧ f.blocks.length = 1 ∧ outpParse f.str = .ok ⟨f.header, []⟩ := by
  refine ⟨exOutpHeader.str.dropLast ++ '\n' ::
    partsText ((exTally8A.vals.set 5 (exSub4.flatMap (Sub.str sub4))).set 4 c!"\n    modified by ft") tally8A.parts,
    ⟨exOutpHeader, [.tally .t8A ⟨exTally8A.vals.set 4 c!"\n    modified by ft", exSub4⟩]⟩, ?_⟩
  decide +kernel

end Props
