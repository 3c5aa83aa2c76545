import Verif.Outp.FileLemmas
import Verif.Props.OutpBlocks
import Verif.Props.OutpTally
/-! No text is read by two classes. -/
namespace Outp
open Py Ptrac Props

set_option maxRecDepth 100000

/-- The first three characters of a class. -/
def PlainKind.code : PlainKind → Str
  | .mcnp => c!"1mc"
  | .neutron => c!"1ne"
  | .photon => c!"1ph"
  | .fluctuation => c!"1an"
  | .summary => c!"1pr"
  | .mcrun => c!"1st"
  | .density => c!"1un"

theorem lit_take {v : Nat → Str} {L : Str} {T : List Item} {c : Str} (h : L.take 3 = c) (h3 : 3 ≤ L.length) :
    (tmplText v (Item.lit L :: T)).take 3 = c := by
  rw [tmplText]
  show (L ++ tmplText v T).take 3 = c
  rw [List.take_append_of_le_length h3, h]

/-- The tables of the class agree. -/
theorem plain_agree (k : PlainKind) : ∃ σ, Agree k.table.items k.table.parts k.table.groups σ := by
  cases k
  · exact ⟨_, mcnp_agree⟩
  · exact ⟨_, neutronActivity_agree⟩
  · exact ⟨_, photonActivity_agree⟩
  · exact ⟨_, fluctuation_agree⟩
  · exact ⟨_, problemSummary_agree⟩
  · exact ⟨_, mcrun_agree⟩
  · exact ⟨_, density_agree⟩

theorem plain_code {k : PlainKind} {s : Str} {b : List Str} (h : blockParse k.table s = .ok b) : s.take 3 = k.code := by
  obtain ⟨σ, hσ⟩ := plain_agree k
  obtain ⟨v, _, rfl, _⟩ := block_read hσ h
  cases k <;> exact lit_take (by decide +kernel) (by decide +kernel)

/-- The lines from the `n`-th on. -/
def after : Nat → Str → Str
  | 0, s => s
  | n + 1, s => after n ((s.dropWhile (· ≠ '\n')).drop 1)

theorem after_line {n : Nat} {l r : Str} (h : '\n' ∉ l) : after (n + 1) (l ++ '\n' :: r) = after n r := by
  rw [after]
  congr 1
  induction l with
  | nil => simp
  | cons c l ih =>
    simp only [List.mem_cons, not_or] at h
    rw [List.cons_append, List.dropWhile_cons, if_pos (by simpa using fun e => h.1 e.symm)]
    exact ih h.2

/-- The items all tallies begin with. -/
def tallyHead : List Item :=
  [.lit c!"1tally ", .fix true 1 8, .lit c!"        nps = ", .fix true 2 11, .lit c!"\n           tally type ", .line true 3 [],
    .lit c!"           particle(s): "]

theorem after_head {v : Nat → Str} {T Q : List Item} (hT : T = tallyHead ++ Q) (hv : ∀ i ∈ T, i.Shape v) {l r : Str} (hl : '\n' ∉ l)
    (hr : tmplText v Q = l ++ '\n' :: r) : after 3 (tmplText v T) = r := by
  have h1 : (v 1).length = 8 ∧ '\n' ∉ v 1 := hv (.fix true 1 8) (by rw [hT]; simp [tallyHead])
  have h2 : (v 2).length = 11 ∧ '\n' ∉ v 2 := hv (.fix true 2 11) (by rw [hT]; simp [tallyHead])
  obtain ⟨u, _, h3, e3⟩ := hv (.line true 3 []) (by rw [hT]; simp [tallyHead])
  have e : tmplText v T = (c!"1tally " ++ v 1 ++ c!"        nps = " ++ v 2) ++ '\n' :: ((c!"           tally type " ++ u) ++ '\n' ::
      ((c!"           particle(s): " ++ l) ++ '\n' :: r)) := by
    rw [hT, tmplText_append, hr]
    have e3' : v 3 = u := by simpa using e3
    simp [tallyHead, tmplText, Item.text, e3']
  rw [e, after_line (by simp [h1.2, h2.2]), after_line (by simp [h3]), after_line (by simp [hl]), after]

theorem line4 {v : Nat → Str} {T Q : List Item} (hT : T = tallyHead ++ (.line true 4 [] :: Q)) (hv : ∀ i ∈ T, i.Shape v) :
    after 3 (tmplText v T) = tmplText v Q := by
  obtain ⟨u, _, h3, e3⟩ := hv (.line true 4 []) (by rw [hT]; simp)
  have e3' : v 4 = u := by simpa using e3
  exact after_head hT hv (l := u) h3 (by simp [tmplText, Item.text, e3'])

theorem mt_tmpl_lit {L : Str} {T : List Item} {w e} (h : Mt (tmplRe (.lit L :: T)) w e) : ∃ r, w = L ++ r := by
  cases h with
  | seq h1 h2 =>
    obtain ⟨rfl, _⟩ := mt_litC h1
    exact ⟨_, rfl⟩

theorem many_start {v : Nat → Str} {g : Bool} {n : Nat} {L : Str} {T : List Item} (h : Item.Shape v (.many g n (tmplRe (.lit L :: T)))) :
    ∃ r, v n = L ++ r := by
  obtain ⟨ws, h0, h1, h2⟩ := h
  cases ws with
  | nil => exact absurd rfl h0
  | cons w ws =>
    obtain ⟨r, e⟩ := mt_tmpl_lit (h1 w (by simp))
    exact ⟨r ++ ws.flatten, by rw [h2, List.flatten_cons, e, List.append_assoc]⟩

/-- The tables of the class agree, and the subtallies are read back. -/
theorem tally_agree (k : TallyKind) : TallyAgree k.table sigmaNumber := by
  cases k
  · exact tally1A_agree
  · exact tally1B_agree
  · exact tally2_agree
  · exact tally4_agree
  · exact tally8A_agree
  · exact tally8B_agree

theorem tally_sub (k : TallyKind) : ∃ Ok, SubSpec k.table.sub Ok := by
  cases k
  · exact ⟨_, sub1_spec⟩
  · exact ⟨_, sub1_spec⟩
  · exact ⟨_, sub2_spec⟩
  · exact ⟨_, sub4_spec⟩
  · exact ⟨_, sub4_spec⟩
  · exact ⟨_, sub4_spec⟩

theorem tally_text {k : TallyKind} {s : Str} {t : Tally} (h : tallyParse k.table s = .ok t) :
    ∃ v : Nat → Str, (∀ i ∈ k.table.items, i.Shape v) ∧ s = tmplText v k.table.items := by
  obtain ⟨Ok, hO⟩ := tally_sub k
  obtain ⟨v, h1, h2, _⟩ := tally_read (tally_agree k) hO h
  exact ⟨v, h1, h2⟩

theorem tally_code {k : TallyKind} {s : Str} {t : Tally} (h : tallyParse k.table s = .ok t) : s.take 3 = c!"1ta" := by
  obtain ⟨v, _, rfl⟩ := tally_text h
  cases k <;> exact lit_take (by decide +kernel) (by decide +kernel)

/-- The lines after the particles. -/
def Mark (k : TallyKind) (s : Str) : Prop :=
  match k with
  | .t1A | .t1B => ∃ r, after 3 s = ' ' :: '\n' :: ' ' :: 's' :: r
  | .t2 => ∃ r, after 3 s = '\n' :: (c!"           a" ++ r)
  | .t4 => ∃ r, after 3 s = '\n' :: (c!"           v" ++ r)
  | .t8A | .t8B => (∃ r, after 3 s = ' ' :: '\n' :: ' ' :: 'c' :: r) ∨ ∃ r, after 4 s = ' ' :: '\n' :: ' ' :: 'c' :: r

/-- The first two characters of the last line. -/
def Ends (c : Char) (s : Str) : Prop := ∃ x l, s = x ++ '\n' :: (' ' :: c :: l) ++ ['\n'] ∧ '\n' ∉ l

theorem ends_unique {c d : Char} {s : Str} (hc : c ≠ '\n') (hd : d ≠ '\n') (h1 : Ends c s) (h2 : Ends d s) : c = d := by
  obtain ⟨x, l, e1, n1⟩ := h1
  obtain ⟨y, m, e2, n2⟩ := h2
  rw [e1] at e2
  have e3 := List.append_cancel_right e2
  obtain ⟨_, e4⟩ := split_last (x := '\n') (by simp [hc.symm, n1]) (by simp [hd.symm, n2]) e3
  simp at e4
  exact e4.1

theorem mark1 {v : Nat → Str} {T Q : List Item} (hT : T = tallyHead ++ (.line true 4 [] :: .lit c!" \n" :: .many true 5 sub1Re :: Q))
    (hv : ∀ i ∈ T, i.Shape v) : ∃ r, after 3 (tmplText v T) = ' ' :: '\n' :: ' ' :: 's' :: r := by
  have hm : Item.Shape v (.many true 5 sub1Re) := hv _ (by rw [hT]; simp)
  obtain ⟨r, e⟩ := many_start (L := c!" surface  ") hm
  rw [line4 hT hv]
  simp [tmplText, Item.text, e]

theorem mark8 {v : Nat → Str} {T Q : List Item} (hT : T = tallyHead ++ (msgItems ++ (.many true 6 sub4Re :: Q)))
    (hv : ∀ i ∈ T, i.Shape v) : (∃ r, after 3 (tmplText v T) = ' ' :: '\n' :: ' ' :: 'c' :: r) ∨
      ∃ r, after 4 (tmplText v T) = ' ' :: '\n' :: ' ' :: 'c' :: r := by
  have hm : Item.Shape v (.many true 6 sub4Re) := hv _ (by rw [hT]; simp)
  obtain ⟨r, e⟩ := many_start (L := c!" cell  ") hm
  have h4 : Mt (Re.plus true .dot) (v 4) [] := hv (.gen true 4 (Re.plus true .dot)) (by rw [hT]; simp [msgItems])
  have h5 : Mt (.opt true (.seq (Re.chr '\n') (.star true .dot))) (v 5) [] :=
    hv (.gen true 5 (.opt true (.seq (Re.chr '\n') (.star true .dot)))) (by rw [hT]; simp [msgItems])
  obtain ⟨_, _, n4⟩ := mt_dot_plus h4
  have hQ : tmplText v (msgItems ++ (.many true 6 sub4Re :: Q)) = v 4 ++ (v 5 ++ '\n' :: ' ' :: '\n' :: (c!" cell  " ++ (r ++ '\n' :: tmplText v Q))) := by
    simp [msgItems, tmplText, Item.text, e]
  generalize h5v : v 5 = m at h5 hQ
  generalize h0 : ([] : List (Nat × Str)) = z at h5
  cases h5 with
  | optNone =>
    left
    exact ⟨_, after_head hT hv n4 hQ⟩
  | optSome h5 =>
    right
    cases h5 with | @seq _ _ u w e1 e2 j3 j4 =>
    obtain ⟨rfl, _⟩ := mt_chr j3
    have nw : '\n' ∉ w := mt_avoids j4 (by decide)
    have h3 := after_head hT hv n4 hQ
    have h4 : ∀ x : Str, after 4 x = after 1 (after 3 x) := fun x => rfl
    rw [h4, h3]
    exact ⟨c!"ell  " ++ (r ++ '\n' :: tmplText v Q), after_line (n := 0) nw⟩

theorem tally_mark {k : TallyKind} {s : Str} {t : Tally} (h : tallyParse k.table s = .ok t) : Mark k s := by
  obtain ⟨v, hv, rfl⟩ := tally_text h
  cases k with
  | t1A => exact mark1 (T := tally1A.items) (Q := tally1A.items.drop 10) rfl hv
  | t1B => exact mark1 (T := tally1B.items) (Q := tally1B.items.drop 10) rfl hv
  | t2 => exact ⟨_, line4 (T := tally2.items) (Q := tally2.items.drop 8) rfl hv⟩
  | t4 => exact ⟨_, line4 (T := tally4.items) (Q := tally4.items.drop 8) rfl hv⟩
  | t8A => exact mark8 (T := tally8A.items) (Q := tally8A.items.drop 11) rfl hv
  | t8B => exact mark8 (T := tally8B.items) (Q := tally8B.items.drop 11) rfl hv

theorem endsA {v : Nat → Str} {T X : List Item} {n m : Nat} {L : Str} (hT : T = X ++ [.line true n [], .lit (' ' :: 'e' :: L), .line true m []])
    (hL : '\n' ∉ L) (hv : ∀ i ∈ T, i.Shape v) : Ends 'e' (tmplText v T) := by
  obtain ⟨u, _, h3, e3⟩ := hv (.line true m []) (by rw [hT]; simp)
  refine ⟨tmplText v X ++ v n, L ++ u, ?_, by simp [hL, h3]⟩
  have e3' : v m = u := by simpa using e3
  rw [hT, tmplText_append]
  simp [tmplText, Item.text, e3']

theorem endsB {v : Nat → Str} {T X : List Item} {n : Nat} {L A B C : Str} (hT : T = X ++ [.lit L, .fix true n 2, .lit (B ++ ['\n'])])
    (hL : L = A ++ '\n' :: ' ' :: 'w' :: C) (hC : '\n' ∉ C) (hB : '\n' ∉ B) (hv : ∀ i ∈ T, i.Shape v) : Ends 'w' (tmplText v T) := by
  have h1 : (v n).length = 2 ∧ '\n' ∉ v n := hv (.fix true n 2) (by rw [hT]; simp)
  refine ⟨tmplText v X ++ A, C ++ v n ++ B, ?_, by simp [hC, h1.2, hB]⟩
  rw [hT, tmplText_append]
  simp [tmplText, Item.text, hL]

/-- The rule before the warning. -/
def warnRule : Str := c!"\n ===================================================================================================================================\n\n"

/-- `e` or `w` -/
def TallyKind.last : TallyKind → Char
  | .t1B | .t8B => 'w'
  | _ => 'e'

theorem tally_ends {k : TallyKind} {s : Str} {t : Tally} (h : tallyParse k.table s = .ok t) : Ends k.last s := by
  obtain ⟨v, hv, rfl⟩ := tally_text h
  have hC : '\n' ∉ c!"arning.  the tally in the tally fluctuation chart bin did not pass " := by decide +kernel
  have hB : '\n' ∉ c!" of the 10 statistical checks." := by decide +kernel
  cases k with
  | t1A => exact endsA (T := tally1A.items) (X := tally1A.items.take 17) rfl (by decide +kernel) hv
  | t2 => exact endsA (T := tally2.items) (X := tally2.items.take 21) rfl (by decide +kernel) hv
  | t4 => exact endsA (T := tally4.items) (X := tally4.items.take 21) rfl (by decide +kernel) hv
  | t8A => exact endsA (T := tally8A.items) (X := tally8A.items.take 18) rfl (by decide +kernel) hv
  | t1B => exact endsB (T := tally1B.items) (X := tally1B.items.take 16) (A := warnRule) rfl rfl hC hB hv
  | t8B => exact endsB (T := tally8B.items) (X := tally8B.items.take 17) (A := warnRule) rfl rfl hC hB hv

/-- 1, 2, 4 or 8 -/
def TallyKind.family : TallyKind → Nat
  | .t1A | .t1B => 1
  | .t2 => 2
  | .t4 => 4
  | .t8A | .t8B => 8

theorem mark_family {k k' : TallyKind} {s : Str} (h : Mark k s) (h' : Mark k' s) : k.family = k'.family := by
  have h12 : (∃ r, after 3 s = ' ' :: '\n' :: ' ' :: 's' :: r) → (∃ r, after 3 s = '\n' :: (c!"           a" ++ r)) → False := by
    rintro ⟨r, h⟩ ⟨q, h'⟩; rw [h] at h'; simp at h'
  have h14 : (∃ r, after 3 s = ' ' :: '\n' :: ' ' :: 's' :: r) → (∃ r, after 3 s = '\n' :: (c!"           v" ++ r)) → False := by
    rintro ⟨r, h⟩ ⟨q, h'⟩; rw [h] at h'; simp at h'
  have h24 : (∃ r, after 3 s = '\n' :: (c!"           a" ++ r)) → (∃ r, after 3 s = '\n' :: (c!"           v" ++ r)) → False := by
    rintro ⟨r, h⟩ ⟨q, h'⟩; rw [h] at h'; simp at h'
  have e4 : after 4 s = after 1 (after 3 s) := rfl
  have h18 : (∃ r, after 3 s = ' ' :: '\n' :: ' ' :: 's' :: r) →
      ((∃ r, after 3 s = ' ' :: '\n' :: ' ' :: 'c' :: r) ∨ ∃ r, after 4 s = ' ' :: '\n' :: ' ' :: 'c' :: r) → False := by
    rintro ⟨r, h⟩ (⟨q, h'⟩ | ⟨q, h'⟩)
    · rw [h] at h'; simp at h'
    · rw [e4, h] at h'; simp [after] at h'
  have h28 : (∃ r, after 3 s = '\n' :: (c!"           a" ++ r)) →
      ((∃ r, after 3 s = ' ' :: '\n' :: ' ' :: 'c' :: r) ∨ ∃ r, after 4 s = ' ' :: '\n' :: ' ' :: 'c' :: r) → False := by
    rintro ⟨r, h⟩ (⟨q, h'⟩ | ⟨q, h'⟩)
    · rw [h] at h'; simp at h'
    · rw [e4, h] at h'; simp [after] at h'
  have h48 : (∃ r, after 3 s = '\n' :: (c!"           v" ++ r)) →
      ((∃ r, after 3 s = ' ' :: '\n' :: ' ' :: 'c' :: r) ∨ ∃ r, after 4 s = ' ' :: '\n' :: ' ' :: 'c' :: r) → False := by
    rintro ⟨r, h⟩ (⟨q, h'⟩ | ⟨q, h'⟩)
    · rw [h] at h'; simp at h'
    · rw [e4, h] at h'; simp [after] at h'
  cases k <;> cases k' <;> first
    | rfl
    | exact (h12 h h').elim
    | exact (h12 h' h).elim
    | exact (h14 h h').elim
    | exact (h14 h' h).elim
    | exact (h24 h h').elim
    | exact (h24 h' h).elim
    | exact (h18 h h').elim
    | exact (h18 h' h).elim
    | exact (h28 h h').elim
    | exact (h28 h' h).elim
    | exact (h48 h h').elim
    | exact (h48 h' h).elim

theorem tally_unique {k k' : TallyKind} {s : Str} {t t' : Tally} (h : tallyParse k.table s = .ok t) (h' : tallyParse k'.table s = .ok t') :
    k = k' := by
  have h1 := mark_family (tally_mark h) (tally_mark h')
  have hl : ∀ k : TallyKind, k.last ≠ '\n' := by intro k; cases k <;> decide
  have h2 := ends_unique (hl k) (hl k') (tally_ends h) (tally_ends h')
  cases k <;> cases k' <;> first | rfl | (revert h1 h2; decide)

theorem readAs_plain {k : PlainKind} {s : Str} {b : Block} (h : readAs (.plain k) s = .ok b) :
    ∃ x, blockParse k.table s = .ok x ∧ b = .plain k x := by
  rw [readAs] at h
  cases hx : blockParse k.table s with
  | error e => rw [hx] at h; cases h
  | ok x => rw [hx] at h; cases h; exact ⟨x, rfl, rfl⟩

theorem readAs_tally {k : TallyKind} {s : Str} {b : Block} (h : readAs (.tally k) s = .ok b) :
    ∃ x, tallyParse k.table s = .ok x ∧ b = .tally k x := by
  rw [readAs] at h
  cases hx : tallyParse k.table s with
  | error e => rw [hx] at h; cases h
  | ok x => rw [hx] at h; cases h; exact ⟨x, rfl, rfl⟩

theorem readAs_header {s : Str} {b : Block} (h : readAs .header s = .ok b) : ∃ x, headerParse s = .ok x ∧ b = .header x := by
  rw [readAs] at h
  cases hx : headerParse s with
  | error e => rw [hx] at h; cases h
  | ok x => rw [hx] at h; cases h; exact ⟨x, rfl, rfl⟩

/-- A header begins with a blank, every other block with `1`. -/
theorem readAs_first {k : Kind} {s : Str} {b : Block} (h : readAs k s = .ok b) :
    ∃ c r, s = c :: r ∧ (k = .header ∧ isSpace c = true ∨ k ≠ .header ∧ c = '1') := by
  have hone : ∀ {s : Str} {x y : Char}, s.take 3 = ['1', x, y] → ∃ r, s = '1' :: r := by
    intro s x y e
    cases s with
    | nil => simp at e
    | cons c r => simp at e; exact ⟨r, by rw [e.1]⟩
  cases k with
  | header =>
    obtain ⟨x, hx, _⟩ := readAs_header h
    obtain ⟨b, h0, hb, _, e⟩ := headerParse_inv hx
    cases b with
    | nil => exact absurd rfl h0
    | cons c r => exact ⟨c, _, e, .inl ⟨rfl, hb c (by simp)⟩⟩
  | plain k =>
    obtain ⟨x, hx, _⟩ := readAs_plain h
    have := plain_code hx
    obtain ⟨r, e⟩ : ∃ r, s = '1' :: r := by cases k <;> exact hone this
    exact ⟨'1', r, e, .inr ⟨by simp, rfl⟩⟩
  | tally k =>
    obtain ⟨x, hx, _⟩ := readAs_tally h
    obtain ⟨r, e⟩ := hone (tally_code hx)
    exact ⟨'1', r, e, .inr ⟨by simp, rfl⟩⟩

/-- No text is read by two classes. -/
theorem kind_unique {k k' : Kind} {s : Str} {b b' : Block} (h : readAs k s = .ok b) (h' : readAs k' s = .ok b') : k = k' := by
  obtain ⟨c, r, e, hk⟩ := readAs_first h
  obtain ⟨c', r', e', hk'⟩ := readAs_first h'
  rw [e] at e'
  cases e'
  have h1 : isSpace '1' = false := by decide
  cases k with
  | header =>
    rcases hk' with ⟨rfl, _⟩ | ⟨_, rfl⟩
    · rfl
    · rcases hk with ⟨_, hk⟩ | ⟨hk, _⟩
      · rw [h1] at hk; cases hk
      · exact absurd rfl hk
  | plain k =>
    obtain ⟨x, hx, _⟩ := readAs_plain h
    cases k' with
    | header =>
      rcases hk' with ⟨_, hc⟩ | ⟨hc, _⟩
      · rcases hk with ⟨hk, _⟩ | ⟨_, rfl⟩
        · cases hk
        · rw [h1] at hc; cases hc
      · exact absurd rfl hc
    | plain k' =>
      obtain ⟨y, hy, _⟩ := readAs_plain h'
      have := (plain_code hx).symm.trans (plain_code hy)
      have : k = k' := by revert this; cases k <;> cases k' <;> decide
      rw [this]
    | tally k' =>
      obtain ⟨y, hy, _⟩ := readAs_tally h'
      have := (plain_code hx).symm.trans (tally_code hy)
      exfalso; revert this; cases k <;> decide
  | tally k =>
    obtain ⟨x, hx, _⟩ := readAs_tally h
    cases k' with
    | header =>
      rcases hk' with ⟨_, hc⟩ | ⟨hc, _⟩
      · rcases hk with ⟨hk, _⟩ | ⟨_, rfl⟩
        · cases hk
        · rw [h1] at hc; cases hc
      · exact absurd rfl hc
    | plain k' =>
      obtain ⟨y, hy, _⟩ := readAs_plain h'
      have := (tally_code hx).symm.trans (plain_code hy)
      exfalso; revert this; cases k' <;> decide
    | tally k' =>
      obtain ⟨y, hy, _⟩ := readAs_tally h'
      rw [tally_unique hx hy]

theorem classes_all (k : Kind) : k ∈ classes := by
  cases k with
  | header => decide
  | plain k => cases k <;> decide
  | tally k => cases k <;> decide

/-- A text is read as what the only class that accepts it reads. -/
theorem readBlock_iff {s : Str} {b : Block} : readBlock s = some b ↔ ∃ k, readAs k s = .ok b := by
  have hto : ∀ {x : Res Block} {b : Block}, x.toOption = some b ↔ x = .ok b := by
    intro x b; cases x <;> simp [Except.toOption]
  constructor
  · intro h
    obtain ⟨k, _, hk⟩ := List.exists_of_findSome?_eq_some h
    exact ⟨k, hto.1 hk⟩
  · rintro ⟨k, hk⟩
    unfold readBlock
    have hsome : (classes.findSome? fun k => (readAs k s).toOption).isSome := by
      rw [List.findSome?_isSome_iff]
      exact ⟨k, classes_all k, by rw [hto.2 hk]; rfl⟩
    obtain ⟨b', hb'⟩ := Option.isSome_iff_exists.1 hsome
    obtain ⟨k', _, hk'⟩ := List.exists_of_findSome?_eq_some hb'
    have hk'' := hto.1 hk'
    have := kind_unique hk hk''
    subst this
    rw [hk] at hk''
    cases hk''
    exact hb'

end Outp
