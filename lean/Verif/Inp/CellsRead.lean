import Verif.Inp.RowOption
import Verif.Types.LatticeLemmas
import Verif.Inp.SurfaceRound
/-!
# Reading lists of cells on tally cards
-/
set_option maxRecDepth 100000
namespace Inp
open Py Types

/-- Characters of lattice expressions and blanks. -/
def latChar (c : Char) : Bool := isSpace c || isDigit c || "+-:<)([]|".toList.contains c

/-- The characters that a pattern can consume. -/
def _root_.Py.Re.onlyC (p : Char → Bool) : Re → Prop
  | .cls q => ∀ c, q c = true → p c = true
  | .seq a b => a.onlyC p ∧ b.onlyC p
  | .alt a b => a.onlyC p ∧ b.onlyC p
  | .opt _ a => a.onlyC p
  | .star _ a => a.onlyC p
  | .grp _ a => a.onlyC p
  | _ => True

theorem onlyC_mt {p : Char → Bool} {r : Re} (h : r.onlyC p) {w e} (hm : Mt r w e) : ∀ c ∈ w, p c = true := by
  induction hm with
  | eps => intro c hc; cases hc
  | cls hp => intro c hc; simp only [List.mem_singleton] at hc; subst hc; exact h _ hp
  | seq _ _ ih1 ih2 =>
    intro c hc
    rcases List.mem_append.1 hc with hc | hc
    · exact ih1 h.1 c hc
    · exact ih2 h.2 c hc
  | altL _ ih => exact ih h.1
  | altR _ ih => exact ih h.2
  | optNone => intro c hc; cases hc
  | optSome _ ih => exact ih h
  | starNil => intro c hc; cases hc
  | starCons _ _ _ ih1 ih2 =>
    intro c hc
    rcases List.mem_append.1 hc with hc | hc
    · exact ih1 h c hc
    · exact ih2 h c hc
  | grp _ ih => exact ih h

theorem lat_kind (n : Nat) : Kind.re n .lat = .plus true latRe := by
  have : (fun c : Char => c == '+' || c == '-') = (fun c => "+-".toList.contains c) := by
    funext c
    rw [Bool.eq_iff_iff]
    simp
  show Re.plus true (.alt _ (.alt (.seq (.opt true (.cls (fun c => c == '+' || c == '-'))) _) _)) = _
  rw [this]
  rfl

/-- One piece of a lattice expression, whatever follows. -/
theorem lat_step {α : Type} {p : LP} {r : Str} (h : p.ok r) (prev : Str) (caps) (k : St → Option α) (x : α)
    (hk : k ⟨p.text.reverse ++ prev, r, caps⟩ = some x) : run latRe ⟨prev, p.text ++ r, caps⟩ k = some x := by
  unfold latRe
  cases p with
  | gap w =>
    obtain ⟨hne, hb, hr⟩ := h
    cases w with
    | nil => exact absurd rfl hne
    | cons c cs =>
      have hc : isSpace c = true := hb c (by simp)
      simp only [LP.text, List.cons_append] at hk ⊢
      rw [run_alt, Re.plus, run_seq, Re.space, run_cls_cons, if_pos hc]
      have := run_star_cls_full isSpace cs r (c :: prev) caps k x
        (fun x hx => hb x (by simp [hx])) hr (by simpa using hk)
      rw [this, Option.some_or]
  | num s =>
    obtain ⟨hs, hr⟩ := h
    obtain ⟨g, d, hg, hne, hd, rfl⟩ := hs
    cases d with
    | nil => exact absurd rfl hne
    | cons c cs =>
      have hc : isDigit c = true := hd c (by simp)
      have tail : ∀ pv : Str, k ⟨(c :: cs).reverse ++ pv, r, caps⟩ = some x → run (Re.plus true Re.digit) ⟨pv, c :: (cs ++ r), caps⟩ k = some x := by
        intro pv hk
        rw [Re.plus, run_seq, Re.digit, run_cls_cons, if_pos hc]
        exact run_star_cls_full isDigit cs r (c :: pv) caps k _
          (fun x hx => hd x (by simp [hx])) hr (by simpa using hk)
      rw [run_alt, Re.plus, run_seq, Re.space]
      rcases hg with rfl | rfl | rfl
      · have hns : "+-".toList.contains c = false := by
          have : c ≠ '+' ∧ c ≠ '-' := ⟨digit_ne hc (by decide), digit_ne hc (by decide)⟩
          simpa using this
        simp only [LP.text, List.nil_append, List.cons_append] at hk ⊢
        rw [run_cls_cons, if_neg (by simp [isDigit_not_space hc]), Option.none_or, run_alt, run_seq, run_opt_greedy,
          Re.oneOf, run_cls_cons, if_neg (by rw [hns]; simp), Option.none_or, tail prev hk, Option.some_or]
      · simp only [LP.text, List.cons_append, List.nil_append] at hk ⊢
        rw [run_cls_cons, if_neg (by decide), Option.none_or, run_alt, run_seq, run_opt_greedy,
          Re.oneOf, run_cls_cons, if_pos (by decide), tail _ (by simpa using hk), Option.some_or, Option.some_or]
      · simp only [LP.text, List.cons_append, List.nil_append] at hk ⊢
        rw [run_cls_cons, if_neg (by decide), Option.none_or, run_alt, run_seq, run_opt_greedy,
          Re.oneOf, run_cls_cons, if_pos (by decide), tail _ (by simpa using hk), Option.some_or, Option.some_or]
  | sym c w =>
    obtain ⟨hc, hb, hr⟩ := h
    have h1 : ∀ x ∈ [':', '<', ')', '(', '[', ']', '|'], isSpace x = false ∧ "+-".toList.contains x = false ∧
      isDigit x = false ∧ ":<)([]|".toList.contains x = true := by decide
    obtain ⟨h1, h2, h3, h4⟩ := h1 c hc
    simp only [LP.text, List.cons_append] at hk ⊢
    rw [run_alt, Re.plus, run_seq, Re.space, run_cls_cons, if_neg (by simp [h1]), Option.none_or,
      run_alt, run_seq, run_opt_greedy, Re.oneOf, run_cls_cons, if_neg (by rw [h2]; simp), Option.none_or,
      Re.plus, run_seq, Re.digit, run_cls_cons, if_neg (by simp [h3]), Option.none_or,
      run_seq, run_star_stop _ _ _ _ _ _ (by intro a b e; cases e; exact h1), run_seq, Re.oneOf, run_cls_cons,
      if_pos h4]
    exact run_star_cls_full isSpace w r (c :: prev) caps k _ hb hr (by simpa using hk)

/-- All pieces at once. -/
theorem lat_star {α : Type} (ps : List LP) (h : LP.Ok ps) (prev : Str) (caps) (k : St → Option α) (x : α)
    (hk : k ⟨(LP.texts ps).reverse ++ prev, [], caps⟩ = some x) : run (.star true latRe) ⟨prev, LP.texts ps, caps⟩ k = some x := by
  induction ps generalizing prev with
  | nil =>
    rw [run_star_greedy]
    have : run latRe ⟨prev, LP.texts [], caps⟩ (starNext latRe (LP.texts []).length k) = none := by
      apply run_none_of; intro st'; simp [starNext]
    rw [this, Option.none_or]
    exact hk
  | cons p ps ih =>
    rw [run_star_greedy]
    rw [LP.texts_cons] at hk ⊢
    rw [lat_step h.1 prev caps _ x, Option.some_or]
    have hl : (LP.texts ps).length < (p.text ++ LP.texts ps).length := by
      have := h.1.ne
      rw [List.length_append]
      have := List.length_pos_iff.2 this
      omega
    simp only [starNext, hl, if_true]
    exact ih h.2 _ (by simpa using hk)

theorem lat_lexes_one (ps : List LP) (h : LP.Ok ps) (hne : ps ≠ []) (n : Nat) : finditer (Kind.re n .lat) (LP.texts ps) = [LP.texts ps] := by
  cases ps with
  | nil => exact absurd rfl hne
  | cons p ps =>
    have hn : LP.texts (p :: ps) ≠ [] := by
      rw [LP.texts_cons]; intro e; exact h.1.ne (List.append_eq_nil_iff.1 e).1
    have := finditer_lexes (Kind.re n .lat) [LP.texts (p :: ps)] ⟨hn, by
      intro prev m hm
      refine ⟨[], ?_⟩
      simp only [List.flatten_nil, List.append_nil]
      rw [lat_kind, Re.plus, run_seq, LP.texts_cons]
      apply lat_step h.1
      apply lat_star ps h.2
      rw [findK_ok (by simpa using hm)]
      simp, trivial⟩
    simpa using this

/-- The pieces of cells embedded in each other. -/
def binPieces : List Str → List LP
  | [] => []
  | [w] => [.num w]
  | w :: ws => .num w :: .sym '<' [] :: binPieces ws

/-- The pieces of bins separated by single blanks. -/
def listPieces : List (List Str) → List LP
  | [] => []
  | [b] => binPieces b
  | b :: bs => binPieces b ++ .gap [' '] :: listPieces bs

/-- Bins: cells embedded in each other, at least one. -/
def Bins (bs : List (List Str)) : Prop := ∀ b ∈ bs, b ≠ [] ∧ ∀ n ∈ b, IsInt n

theorem Bins.tail {b bs} (h : Bins (b :: bs)) : Bins bs := fun x hx => h x (by simp [hx])

/-- One expression in which every cell is embedded in the next. -/
def chain : List Str → Lat
  | [] => .digit []
  | w :: ws => ws.foldl (fun l x => .emb l (.digit x)) (.digit w)

/-- One expression in which every bin is embedded in the next. -/
def chains : List (List Str) → Lat
  | [] => .digit []
  | b :: bs => bs.foldl (fun l x => .emb l (chain x)) (chain b)

theorem chain_str (ns : List Str) (h : ns ≠ []) : (chain ns).str = join ['<'] ns := by
  have key : ∀ (ws : List Str) (l : Lat), (ws.foldl (fun l x => Lat.emb l (.digit x)) l).str = join ['<'] (l.str :: ws) := by
    intro ws
    induction ws with
    | nil => intro l; simp [join]
    | cons w ws ih =>
      intro l
      rw [List.foldl_cons, ih]
      cases ws with
      | nil => simp [join, Lat.str]
      | cons x xs => simp [join, Lat.str]
  cases ns with
  | nil => exact absurd rfl h
  | cons w ws => exact key ws (.digit w)

theorem join_two (sep : Str) : ∀ (a b : List Str), a ≠ [] → b ≠ [] → join sep (a ++ b) = join sep a ++ sep ++ join sep b
  | [], _, h, _ => absurd rfl h
  | [x], b, _, hb => join_cons sep x b hb
  | x :: y :: a, b, _, hb => by
    have := join_two sep (y :: a) b (by simp) hb
    rw [List.cons_append, join_cons _ _ _ (by simp), this, join_cons sep x (y :: a) (by simp)]
    simp

theorem chains_str (bs : List (List Str)) (hne : bs ≠ []) (h : ∀ b ∈ bs, b ≠ []) : (chains bs).str = join ['<'] bs.flatten := by
  have key : ∀ (bs : List (List Str)) (l : Lat) (ws : List Str), ws ≠ [] → (∀ b ∈ bs, b ≠ []) → l.str = join ['<'] ws →
      (bs.foldl (fun l x => Lat.emb l (chain x)) l).str = join ['<'] (ws ++ bs.flatten) := by
    intro bs
    induction bs with
    | nil => intro l ws _ _ hl; simpa using hl
    | cons b bs ih =>
      intro l ws hw hb hl
      rw [List.foldl_cons, ih _ (ws ++ b) (by simp [hw]) (fun x hx => hb x (by simp [hx]))]
      · simp
      · rw [join_two _ _ _ hw (hb b (by simp)), Lat.str, hl, chain_str b (hb b (by simp))]; simp
  cases bs with
  | nil => exact absurd rfl hne
  | cons b bs => exact key bs _ b (h b (by simp)) (fun x hx => h x (by simp [hx])) (chain_str b (h b (by simp)))

theorem bin_texts : ∀ ns : List Str, LP.texts (binPieces ns) = join ['<'] ns
  | [] => rfl
  | [w] => by simp [binPieces, LP.text, join]
  | w :: x :: ws => by
    have := bin_texts (x :: ws)
    simp only [binPieces, LP.texts_cons, LP.text, this, join]
    simp

theorem list_texts : ∀ bs : List (List Str), LP.texts (listPieces bs) = join [' '] (bs.map (join ['<']))
  | [] => rfl
  | [b] => by simp [listPieces, bin_texts, join]
  | b :: x :: bs => by
    have := list_texts (x :: bs)
    simp only [listPieces, LP.texts_append, LP.texts_cons, LP.text, this, bin_texts, List.map_cons, join]
    simp

/-- The tokens of a bin. -/
def binToks : List Str → List Str
  | [] => []
  | w :: ws => w :: ws.flatMap (fun x => [['<'], x])

theorem bin_toks : ∀ ns : List Str, LP.toks (binPieces ns) = binToks ns
  | [] => rfl
  | [w] => by simp [binPieces, binToks]
  | w :: x :: ws => by
    have := bin_toks (x :: ws)
    simp only [binPieces, LP.toks_num, LP.toks_sym, this, binToks]
    simp

theorem list_toks : ∀ bs : List (List Str), LP.toks (listPieces bs) = bs.flatMap binToks
  | [] => rfl
  | [b] => by simp [listPieces, bin_toks]
  | b :: x :: bs => by
    have := list_toks (x :: bs)
    simp only [listPieces, LP.toks_append, LP.toks_gap, this, bin_toks]
    simp

theorem chain_toks (ns : List Str) (h : ns ≠ []) : (chain ns).toks = binToks ns := by
  have key : ∀ (ws : List Str) (l : Lat), (ws.foldl (fun l x => Lat.emb l (.digit x)) l).toks = l.toks ++ ws.flatMap (fun x => [['<'], x]) := by
    intro ws
    induction ws with
    | nil => intro l; simp
    | cons w ws ih => intro l; rw [List.foldl_cons, ih]; simp [Lat.toks]
  cases ns with
  | nil => exact absurd rfl h
  | cons w ws => rw [chain, key]; simp [Lat.toks, binToks]

theorem chain_wf (ns : List Str) (h : ns ≠ []) (hi : ∀ n ∈ ns, IsInt n) : LWf 1 (chain ns) := by
  have key : ∀ (ws : List Str) (l : Lat), LWf 1 l → (∀ n ∈ ws, IsInt n) → LWf 1 (ws.foldl (fun l x => Lat.emb l (.digit x)) l) := by
    intro ws
    induction ws with
    | nil => intro l hl _; exact hl
    | cons w ws ih =>
      intro l hl hw
      exact ih _ (.emb hl (.digit (hw w (by simp)))) (fun n hn => hw n (by simp [hn]))
  cases ns with
  | nil => exact absurd rfl h
  | cons w ws => exact key ws _ (.up (.digit (hi w (by simp)))) (fun n hn => hi n (by simp [hn]))

/-- The text of a bin begins with a sign or digit. -/
theorem bin_head {b : List Str} (h : b ≠ []) (hi : ∀ n ∈ b, IsInt n) (r : Str) : ∃ c cs, LP.texts (binPieces b) ++ r = c :: cs ∧ isSpace c = false := by
  rw [bin_texts]
  cases b with
  | nil => exact absurd rfl h
  | cons w ws =>
    obtain ⟨d, ds, hd, -⟩ := (hi w (by simp)).head
    have hs := (hi w (by simp)).noSpace d (by rw [hd]; simp)
    cases ws with
    | nil => exact ⟨d, ds ++ r, by simp [join, hd], hs⟩
    | cons x xs => exact ⟨d, ds ++ ['<'] ++ join ['<'] (x :: xs) ++ r, by simp [join, hd], hs⟩

theorem list_head {bs : List (List Str)} (h : Bins bs) : HeadNot isSpace (LP.texts (listPieces bs)) := by
  intro c cs e
  cases bs with
  | nil => cases e
  | cons b bs =>
    obtain ⟨h1, h2⟩ := h b (by simp)
    cases bs with
    | nil =>
      obtain ⟨d, ds, hd, hs⟩ := bin_head h1 h2 []
      rw [List.append_nil] at hd
      rw [show listPieces [b] = binPieces b from rfl, hd] at e
      cases e; exact hs
    | cons x bs =>
      obtain ⟨d, ds, hd, hs⟩ := bin_head h1 h2 (LP.texts (.gap [' '] :: listPieces (x :: bs)))
      rw [show listPieces (b :: x :: bs) = binPieces b ++ .gap [' '] :: listPieces (x :: bs) from rfl, LP.texts_append, hd] at e
      cases e; exact hs

theorem bin_ok : ∀ (b : List Str) (qs : List LP), (∀ n ∈ b, IsInt n) → LP.Ok qs → HeadNot isDigit (LP.texts qs) → LP.Ok (binPieces b ++ qs)
  | [], _, _, hq, _ => hq
  | [w], _, h, hq, hd => ⟨⟨h w (by simp), hd⟩, hq⟩
  | w :: x :: ws, qs, h, hq, hd => by
    have hx : ∀ n ∈ x :: ws, IsInt n := fun n hn => h n (by simp only [List.mem_cons] at hn ⊢; exact .inr hn)
    refine ⟨⟨h w (by simp), ?_⟩, ⟨by simp, blank_nil, ?_⟩, bin_ok (x :: ws) qs hx hq hd⟩
    · intro c cs e
      cases e; decide
    · intro c cs e
      obtain ⟨d, ds, hd, hs⟩ := bin_head (b := x :: ws) (by simp) hx (LP.texts qs)
      have e' : LP.texts (binPieces (x :: ws) ++ qs) = c :: cs := e
      rw [LP.texts_append, hd] at e'
      cases e'; exact hs

theorem list_ok : ∀ bs : List (List Str), Bins bs → LP.Ok (listPieces bs)
  | [], _ => trivial
  | [b], h => by
    have := bin_ok b [] (h b (by simp)).2 trivial (by intro c cs e; cases e)
    simpa [listPieces] using this
  | b :: x :: bs, h => by
    refine bin_ok b _ (h b (by simp)).2 ⟨⟨by simp, ?_, list_head h.tail⟩, list_ok (x :: bs) h.tail⟩ ?_
    · intro c hc
      rw [List.mem_singleton.1 hc]; decide
    · intro c cs e
      cases e; decide

theorem list_lEmb {b : List Str} {bs : List (List Str)} (h : Bins (b :: bs)) (n : Nat) (hn : 2 * (binToks b).length < n) :
    lEmb n ((b :: bs).flatMap binToks) = .ok (chain b, bs.flatMap binToks) := by
  obtain ⟨h1, h2⟩ := h b (by simp)
  have hh : ∀ t : Char, isDigit t = false → t ≠ '+' → t ≠ '-' → (bs.flatMap binToks).head? ≠ some [t] := by
    intro t k1 k2 k3 e
    cases bs with
    | nil => cases e
    | cons y ys =>
      obtain ⟨hy, hi⟩ := h y (by simp)
      cases y with
      | nil => exact hy rfl
      | cons x xs =>
        simp only [List.flatMap_cons, binToks, List.cons_append, List.head?_cons, Option.some.injEq] at e
        obtain ⟨g, d, hg, hne, hd, rfl⟩ := hi x (by simp)
        cases d with
        | nil => exact hne rfl
        | cons c cs =>
          have hc := hd c (by simp)
          rcases hg with rfl | rfl | rfl
          · simp only [List.nil_append, List.cons.injEq] at e
            rw [e.1, k1] at hc; cases hc
          · simp at e
          · simp at e
  rw [List.flatMap_cons, ← chain_toks b h1]
  exact lEmb_read (chain_wf b h1 h2) _ ⟨hh ':' (by decide) (by decide) (by decide), hh '[' (by decide) (by decide) (by decide)⟩
    (hh '<' (by decide) (by decide) (by decide)) n (by rw [chain_toks b h1]; exact hn)

theorem bin_pos {b : List Str} (h : b ≠ []) : 0 < (binToks b).length := by
  cases b with
  | nil => exact absurd rfl h
  | cons w ws => simp [binToks]

theorem list_lTop : ∀ (bs : List (List Str)) (l : Lat) (n : Nat), Bins bs → (bs.flatMap binToks).length < n →
    lTop n l (bs.flatMap binToks) = .ok (bs.foldl (fun l x => .emb l (chain x)) l)
  | [], l, n + 1, _, _ => by simp [lTop]
  | b :: bs, l, n + 1, h, hn => by
    have hp := bin_pos (h b (by simp)).1
    have hlen : ((b :: bs).flatMap binToks).length = (binToks b).length + (bs.flatMap binToks).length := by simp
    simp only [lTop]
    rw [if_neg (by intro e; rw [e] at hlen; simp at hlen; omega), list_lEmb h _ (by omega)]
    exact list_lTop bs _ n h.tail (by omega)

theorem list_ne {bs : List (List Str)} (hne : bs ≠ []) (h : Bins bs) : LP.texts (listPieces bs) ≠ [] := by
  cases bs with
  | nil => exact absurd rfl hne
  | cons b bs =>
    obtain ⟨h1, h2⟩ := h b (by simp)
    cases bs with
    | nil =>
      obtain ⟨d, ds, hd, -⟩ := bin_head h1 h2 []
      rw [List.append_nil] at hd
      rw [show listPieces [b] = binPieces b from rfl, hd]; simp
    | cons x bs =>
      obtain ⟨d, ds, hd, -⟩ := bin_head h1 h2 (LP.texts (.gap [' '] :: listPieces (x :: bs)))
      rw [show listPieces (b :: x :: bs) = binPieces b ++ .gap [' '] :: listPieces (x :: bs) from rfl, LP.texts_append, hd]; simp

theorem int_lat {n : Str} (h : IsInt n) : ∀ c ∈ n, latChar c = true := by
  obtain ⟨g, d, hg, -, hd, rfl⟩ := h
  intro c hc
  rcases List.mem_append.1 hc with hc | hc
  · rcases hg with rfl | rfl | rfl
    · cases hc
    · rw [List.mem_singleton.1 hc]; decide
    · rw [List.mem_singleton.1 hc]; decide
  · have := hd c hc
    simp [latChar, this]

/-- The characters of a bin. -/
theorem bin_chars : ∀ b : List Str, (∀ n ∈ b, IsInt n) → ∀ c ∈ join ['<'] b, latChar c = true ∧ isSpace c = false
  | [], _, c, hc => by cases hc
  | [w], h, c, hc => ⟨int_lat (h w (by simp)) c hc, (h w (by simp)).noSpace c hc⟩
  | w :: x :: ws, h, c, hc => by
    rw [join_cons _ _ _ (by simp)] at hc
    rcases List.mem_append.1 hc with hc | hc
    · rcases List.mem_append.1 hc with hc | hc
      · exact ⟨int_lat (h w (by simp)) c hc, (h w (by simp)).noSpace c hc⟩
      · rw [List.mem_singleton.1 hc]; decide
    · exact bin_chars (x :: ws) (fun n hn => h n (by simp only [List.mem_cons] at hn ⊢; exact .inr hn)) c hc

theorem list_last : ∀ bs : List (List Str), Bins bs → ∀ c ∈ (LP.texts (listPieces bs)).getLast?, isSpace c = false
  | [], _, c, hc => by cases hc
  | [b], h, c, hc => by
    rw [show listPieces [b] = binPieces b from rfl, bin_texts] at hc
    exact (bin_chars b (h b (by simp)).2 c (List.mem_of_getLast? hc)).2
  | b :: x :: bs, h, c, hc => by
    have hne := list_ne (bs := x :: bs) (by simp) h.tail
    refine list_last (x :: bs) h.tail c ?_
    rw [show listPieces (b :: x :: bs) = binPieces b ++ .gap [' '] :: listPieces (x :: bs) from rfl, LP.texts_append, LP.texts_cons,
      List.getLast?_append, List.getLast?_append] at hc
    cases hq : (LP.texts (listPieces (x :: bs))).getLast? with
    | none => exact absurd (List.getLast?_eq_none_iff.1 hq) hne
    | some d => rw [hq] at hc; simpa using hc

/-- Bins separated by blanks are one expression. -/
theorem list_parse (bs : List (List Str)) (hne : bs ≠ []) (h : Bins bs) : latParse (join [' '] (bs.map (join ['<']))) = .ok (chains bs) := by
  have ht : latToks (join [' '] (bs.map (join ['<']))) = some (bs.flatMap binToks) := by
    have := latToks_pieces (listPieces bs) (list_ok bs h) (list_ne hne h) (by
      intro c hc
      obtain ⟨cs, e⟩ : ∃ cs, LP.texts (listPieces bs) = c :: cs := by
        cases hq : LP.texts (listPieces bs) with
        | nil => rw [hq] at hc; cases hc
        | cons a b => rw [hq] at hc; simp at hc; subst hc; exact ⟨b, rfl⟩
      exact list_head h c cs e) (list_last bs h) [] [] blank_nil blank_nil
    simpa [list_texts, list_toks] using this
  unfold latParse
  rw [ht]
  cases bs with
  | nil => exact absurd rfl hne
  | cons b bs =>
    have : lAll ((b :: bs).flatMap binToks) = .ok (chains (b :: bs)) := by
      unfold lAll
      rw [list_lEmb h _ (by simp; omega)]
      exact list_lTop bs _ _ h.tail (by omega)
    simp only [this]

theorem latChar_only (n : Nat) : (Kind.re n .lat).onlyC latChar := by
  rw [lat_kind]
  have h1 : ∀ c, isSpace c = true → latChar c = true := fun c h => by simp [latChar, h]
  have h2 : ∀ c, isDigit c = true → latChar c = true := fun c h => by simp [latChar, h]
  have h3 : ∀ c, "+-".toList.contains c = true → latChar c = true := by
    intro c h
    simp only [String.reduceToList, List.contains_iff_mem, List.mem_cons, List.not_mem_nil, or_false] at h
    rcases h with rfl | rfl <;> decide
  have h4 : ∀ c, ":<)([]|".toList.contains c = true → latChar c = true := by
    intro c h
    simp only [String.reduceToList, List.contains_iff_mem, List.mem_cons, List.not_mem_nil, or_false] at h
    rcases h with rfl | rfl | rfl | rfl | rfl | rfl | rfl <;> decide
  have : latRe.onlyC latChar := ⟨⟨h1, h1⟩, ⟨h3, h2, h2⟩, h1, h4, h1⟩
  exact ⟨this, this⟩

abbrev starPat : Pat := .opt (.grp (.cls (.set false [.ch '*', .ch '+'])))
abbrev suffixPat : Pat := .grp (.seq (.star (.cls (.one .d))) (.cls (.set false [.ch '1', .ch '2', .ch '3', .ch '4', .ch '6', .ch '7'])))
abbrev desigPat : Pat := .opt (.ngrp (.seq (.lits c!":") (.grp (.plus true (.cls (.one .S))))))

theorem f4_re : Tab.F_4.re = anchored (.seq (starPat.re 1) (.seq (litRe c!"f") (.seq (suffixPat.re 2) (.seq (desigPat.re 3)
    (.seq (.grp 4 (.plus false (.seq (litRe c!" ") (Kind.re 5 .lat)))) (.opt true (.grp 5 (litRe c!" t")))))))) := rfl

theorem lower_flag {v : Str} (h : lower v = lower c!" t") : ∃ c, v = [' ', c] ∧ lowerC c = 't' := by
  have hl : v.length = 2 := by
    have := congrArg List.length h
    simpa [lower] using this
  obtain ⟨a, b, rfl⟩ : ∃ a b, v = [a, b] := by
    match v, hl with
    | [a, b], _ => exact ⟨a, b, rfl⟩
  have ha : lower [a] = lower [' '] := congrArg (List.take 1) h
  have hb : lowerC b = 't' := by
    have := congrArg (fun l => l[1]?) h
    simp only [lower, List.map_cons, List.map_nil, List.getElem?_cons_succ, List.getElem?_cons_zero, Option.some.injEq] at this
    rw [this]; decide
  have : [a] = [' '] := lower_blank ha
  cases this
  exact ⟨b, rfl, hb⟩

theorem lat_t {c : Char} (h : latChar c = true) (ht : lowerC c = 't') : False := by
  rcases lowerC_cases ht with rfl | rfl <;> revert h <;> decide

theorem enc_lat {ns : List Str} (h : ∀ n ∈ ns, ∀ c ∈ n, latChar c = true) : ∀ c ∈ enc ns, latChar c = true := by
  intro c hc
  simp only [enc, List.mem_flatMap, List.mem_cons] at hc
  obtain ⟨n, hn, rfl | hc⟩ := hc
  · decide
  · exact h n hn c hc

/-- The texts of cells and of the flag on a tally card. -/
theorem f4_caps {hd : Str} {ns tl : List Str} (hw : Words (hd :: (ns ++ tl))) (hi : ∀ n ∈ ns, ∀ c ∈ n, latChar c = true)
    (ht : tl = [] ∨ ∃ c, tl = [[c]] ∧ lowerC c = 't') {m} (h : reMatch Tab.F_4.re (hd ++ enc (ns ++ tl)) = some m) :
    cap m 4 = some (enc ns) ∧ cap m 5 = (if tl = [] then none else some (enc tl)) := by
  rw [f4_re] at h
  obtain ⟨e, hm0, hme⟩ := full_match (by decide +kernel) h
  obtain ⟨a, w1, ea, x1, m1, hm1, e1, rfl⟩ := mt_seq.1 hm0
  obtain ⟨b, w2, eb, x2, m2, hm2, rfl, rfl⟩ := mt_seq.1 hm1
  obtain ⟨s, w3, es, x3, m3, hm3, rfl, rfl⟩ := mt_seq.1 hm2
  obtain ⟨d, w4, ed, x4, m4, hm4, rfl, rfl⟩ := mt_seq.1 hm3
  obtain ⟨u, v, eu, ev, m5, m6, rfl, rfl⟩ := mt_seq.1 hm4
  have na := noSp_mt (starPat.facts (by decide +kernel) 1).2.1 _ _ m1
  have nb := noSp_mt (litRe_facts c!"f" (by decide) 0 0).2.1 _ _ m2
  have nsu := noSp_mt (suffixPat.facts (by decide +kernel) 2).2.1 _ _ m3
  have nd := noSp_mt (desigPat.facts (by decide +kernel) 3).2.1 _ _ m4
  obtain ⟨z, m5', rfl⟩ := mt_grp.1 m5
  have hu : ∃ t, u = ' ' :: t := by
    obtain ⟨p, q, x, y, k1, k2, rfl, -⟩ := mt_seq.1 m5'
    obtain ⟨p1, p2, x1, y1, k3, k4, rfl, -⟩ := mt_seq.1 k1
    obtain ⟨rfl, -⟩ := (blank_lit.mt _ _).1 k3
    exact ⟨_, rfl⟩
  have hlat : ∀ c ∈ u, latChar c = true := by
    refine onlyC_mt ?_ m5'
    have hb : (litRe c!" ").onlyC latChar := by
      refine ⟨?_, trivial⟩
      intro c hc
      have : lower [c] = lower [' '] := by simpa [lower] using hc
      have := lower_blank this
      cases this; decide
    exact ⟨⟨hb, latChar_only 5⟩, ⟨hb, latChar_only 5⟩⟩
  have hhd : enc (ns ++ tl) = u ++ v := by
    have hnu : ∀ c ∈ a ++ (b ++ (s ++ d)), isSpace c = false := by
      intro c hc
      simp only [List.mem_append] at hc
      rcases hc with hc | hc | hc | hc
      · exact na c hc
      · exact nb c hc
      · exact nsu c hc
      · exact nd c hc
    obtain ⟨y, h1, h2⟩ := prefix_word (t := u ++ v) hnu (enc_bnd (ns ++ tl)) (by rw [e1]; simp)
    cases y with
    | nil => exact h2.symm
    | cons f fs =>
      obtain ⟨t, rfl⟩ := hu
      simp only [List.cons_append, List.cons.injEq] at h2
      have := (hw hd (by simp)).1 f (by rw [h1]; simp)
      rw [← h2.1] at this
      exact absurd this (by decide)
  have hgz : z = [] := by
    refine (mt_plus ?_ m5').1
    refine ⟨blank_lit.groups _ _, ?_⟩
    rw [lat_kind]
    simp [Re.plus, latRe, Re.groupsIn, Re.space, Re.digit, Re.oneOf]
  have hg : ∀ k, 4 ≤ k → (ed ++ (es ++ (eb ++ ea))).lookup k = none := by
    intro k hk
    rw [List.lookup_eq_none_iff]
    intro x hx
    have : x.1 < 4 := by
      simp only [List.mem_append] at hx
      rcases hx with hx | hx | hx | hx
      · exact (m4.groups (desigPat.facts (by decide +kernel) 3).2.2 x hx).2
      · exact Nat.lt_trans (m3.groups (suffixPat.facts (by decide +kernel) 2).2.2 x hx).2 (by decide)
      · exact absurd (m2.groups (litRe_facts c!"f" (by decide) 0 0).2.2 x hx).2 (by omega)
      · exact Nat.lt_trans (m1.groups (starPat.facts (by decide +kernel) 1).2.2 x hx).2 (by decide)
    simp; omega
  have key : u = enc ns ∧ ((tl = [] ∧ v = [] ∧ ev = []) ∨ (tl ≠ [] ∧ v = enc tl ∧ ev = [(5, enc tl)])) := by
    rw [enc_append] at hhd
    rcases mt_opt.1 m6 with ⟨rfl, rfl⟩ | m6
    · rcases ht with rfl | ⟨c, rfl, hc⟩
      · exact ⟨by simpa using hhd.symm, .inl ⟨rfl, rfl, rfl⟩⟩
      · refine (lat_t (hlat c ?_) hc).elim
        rw [← List.append_nil u, ← hhd]; simp
    · obtain ⟨y, m7, rfl⟩ := mt_grp.1 m6
      obtain ⟨k1, rfl⟩ := mt_lit.1 m7
      obtain ⟨c, rfl, hc⟩ := lower_flag k1
      rcases ht with rfl | ⟨c', rfl, hc'⟩
      · refine (lat_t (enc_lat hi c ?_) hc).elim
        have : enc ns = u ++ [' ', c] := by simpa using hhd
        rw [this]; simp
      · obtain ⟨h1, h2⟩ := List.append_inj' hhd rfl
        exact ⟨h1.symm, .inr ⟨by simp, h2.symm, by rw [h2]⟩⟩
  obtain ⟨rfl, key⟩ := key
  subst hgz
  rw [hme]
  rcases key with ⟨rfl, rfl, rfl⟩ | ⟨hne, rfl, rfl⟩
  · refine ⟨by simp [cap, List.lookup], ?_⟩
    have := hg 5 (by omega)
    simp only [cap, List.lookup, show ((5 : Nat) == 0) = false from rfl, show ((5 : Nat) == 4) = false from rfl, List.nil_append, List.cons_append,
      List.append_assoc, this, if_true]
  · refine ⟨by simp [cap, List.lookup], ?_⟩
    rw [if_neg hne]
    simp [cap, List.lookup]

end Inp
