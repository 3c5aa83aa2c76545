import Verif.Inp.TrclRead
import Verif.Inp.OptionRound
/-!
# Printing transformations and reading them back
-/
set_option maxRecDepth 100000
namespace Inp
open Py Types

theorem num_trC {c : Char} (h : numCh c = true) : trC c = true := by
  rcases numCh_cases h with h | rfl | rfl | rfl | rfl | rfl
  · simp [trC, h]
  all_goals decide

/-- Text of the system. -/
def sysText : Option Int → Str
  | none => []
  | some n => intStr n

theorem transStr_eq (ds : List Dec) (m : Option Int) :
    transStr (ds.map (fun d => .num (.fin d))) (m.map .num) = join [' '] (ds.map Dec.str ++ [sysText m]) := by
  unfold transStr
  rw [List.map_map]
  cases m <;> rfl

theorem sys_chars (m : Option Int) : ∀ c ∈ sysText m, trC c = true := by
  cases m with
  | none => simp [sysText]
  | some n =>
    intro c hc
    rcases intStr_chars n c hc with h | rfl
    · exact num_trC (numCh_digit h)
    · decide

theorem reals_read (ds : List Dec) : readReals (ds.map Dec.str) = .ok (ds.map (fun d => .num (.fin d))) := by
  induction ds with
  | nil => rfl
  | cons d ds ih =>
    have := Props.C01_real_roundtrip d
    simp only [List.map_cons, readReals, ih, show realParse d.str = .ok (.num (.fin d)) from this]

/-- The system can be left out, or is 1 or -1. -/
def SysOk (m : Option Int) : Prop := ∀ n ∈ m, n = 1 ∨ n = -1

theorem pieces_read {k : Nat} {ds : List Dec} (hl : ds.length = trCount k) {m : Option Int} (hm : SysOk m) (ps : List Str)
    (h : ps = ds.map Dec.str ++ [sysText m] ∨ (m = none ∧ ps = ds.map Dec.str)) :
    readTrans k ps = .ok (.sc (.trans k (ds.map (fun d => .num (.fin d))) (m.map .num))) := by
  have h1 : ps.take (trCount k) = ds.map Dec.str := by
    rcases h with rfl | ⟨-, rfl⟩
    · rw [List.take_left' (by simpa using hl)]
    · rw [List.take_of_length_le (by simp [hl])]
  unfold readTrans
  rw [h1, reals_read]
  simp only
  have h2 : ps[trCount k]?.getD [] = sysText m := by
    rcases h with rfl | ⟨rfl, rfl⟩
    · rw [List.getElem?_append_right (by simp [hl])]; simp [hl]
    · rw [List.getElem?_eq_none (by simp [hl])]; rfl
  rw [h2]
  cases m with
  | none => rfl
  | some n =>
    have h3 := hm n rfl
    have : sysText (some n) = intStr n := rfl
    rw [this]
    rcases h3 with rfl | rfl <;> rfl

theorem pieces_text {k : Nat} {ds : List Dec} (hl : ds.length = trCount k) (m : Option Int) :
    TransText k (join [' '] (ds.map Dec.str ++ [sysText m])) (ds.map Dec.str ++ [sysText m]) ∧
    TransText k (join [' '] (ds.map Dec.str)) (ds.map Dec.str) := by
  have hd : ∀ p ∈ ds.map Dec.str, ∀ c ∈ p, trC c = true := by
    intro p hp c hc
    obtain ⟨d, -, rfl⟩ := List.mem_map.1 hp
    exact num_trC (Dec.str_chars d c hc)
  have hn : ∀ p ∈ ds.map Dec.str, p ≠ [] := by
    intro p hp
    obtain ⟨d, -, rfl⟩ := List.mem_map.1 hp
    exact Dec.str_ne_nil d
  refine ⟨⟨.inr (by simp [hl]), ?_, ?_, [], [], .inl rfl, .inl rfl, by simp⟩, ⟨.inl (by simp [hl]), hd, fun p hp => hn p (List.mem_of_mem_take hp), [], [], .inl rfl, .inl rfl, by simp⟩⟩
  · intro p hp
    rcases List.mem_append.1 hp with hp | hp
    · exact hd p hp
    · simp only [List.mem_singleton] at hp
      subst hp
      exact sys_chars m
  · intro p hp
    rw [List.take_append_of_le_length (by simp [hl])] at hp
    exact hn p (List.mem_of_mem_take hp)

/-- The printed option. -/
def trclObj (c : Cls) (star : Bool) (k : Nat) (ds : List Dec) (m : Option Int) : Val :=
  .obj c.info [if star then .sc (.str ['*']) else .none, .sc (.trans k (ds.map (fun d => .num (.fin d))) (m.map .num))]

theorem trcl_text (like : Bool) (star : Bool) (k : Nat) (ds : List Dec) (m : Option Int) :
    (trclObj (trclOf like k) star k ds m).str = ((if star then ['*'] else []) ++ c!"trcl") ++ ' ' :: join [' '] (ds.map Dec.str ++ [sysText m]) := by
  have hi : ∃ n, (trclOf like k).info = ⟨n, .option, c!"trcl", ["prefix", "transformation"]⟩ := by
    unfold trclOf
    split <;> exact ⟨_, rfl⟩
  obtain ⟨n, hi⟩ := hi
  rw [← transStr_eq]
  unfold trclObj
  generalize ds.map (fun d => RealVal.num (.fin d)) = rs
  rw [hi]
  cases star <;> rfl

theorem trcl_entry (star : Bool) : Entry ((if star then ['*'] else []) ++ c!"trcl") := by
  cases star <;> decide

/-- The words of the printed option. -/
def trclWords (ds : List Dec) (m : Option Int) : List Str := ds.map Dec.str ++ (match m with | none => [] | some n => [intStr n])

theorem trclWords_stable (ds : List Dec) (m : Option Int) : ∀ w ∈ trclWords ds m, Stable w := by
  intro w hw
  rcases List.mem_append.1 hw with hw | hw
  · obtain ⟨d, -, rfl⟩ := List.mem_map.1 hw
    exact plain_num (Dec.str_ne_nil d) (Dec.str_chars d)
  · cases m with
    | none => simp at hw
    | some n =>
      simp only [List.mem_singleton] at hw
      subst hw
      exact plain_int n

theorem trcl_prep (like : Bool) (star : Bool) (k : Nat) (ds : List Dec) (hne : ds ≠ []) (m : Option Int) :
    preprocess (trclObj (trclOf like k) star k ds m).str = ((if star then ['*'] else []) ++ c!"trcl") ++ enc (trclWords ds m) ∧
    Words (((if star then ['*'] else []) ++ c!"trcl") :: trclWords ds m) := by
  rw [trcl_text]
  generalize hh : ((if star then ['*'] else []) ++ c!"trcl") = hd
  have he : Entry hd := by rw [← hh]; exact trcl_entry star
  have hst := trclWords_stable ds m
  have go : ∀ g1, Ws g1 → hd ++ ' ' :: join [' '] (ds.map Dec.str ++ [sysText m]) = [] ++ (hd ++ (body (single (trclWords ds m)) ++ g1)) →
      preprocess (hd ++ ' ' :: join [' '] (ds.map Dec.str ++ [sysText m])) = hd ++ enc (trclWords ds m) ∧ Words (hd :: trclWords ds m) := by
    intro g1 hg e
    obtain ⟨h1, h2⟩ := spaced_single hd (trclWords ds m) g1 he hst hg
    obtain ⟨-, h3, h4⟩ := spaced_prep h1
    rw [e]
    rw [h2] at h3 h4
    exact ⟨h3, h4⟩
  cases ds with
  | nil => exact absurd rfl hne
  | cons d ds =>
    cases m with
    | none =>
      refine go [' '] (.sp .nil) ?_
      rw [single_body]
      simp only [List.map_cons, List.cons_append, trclWords, List.append_nil, sysText, List.nil_append]
      rw [join_enc, enc_append, enc_cons]
      simp [enc]
    | some n =>
      refine go [] .nil ?_
      rw [single_body]
      simp only [List.map_cons, List.cons_append, trclWords, List.append_nil, sysText, List.nil_append]
      rw [join_enc, enc_cons]

theorem trcl_pieces {k : Nat} {ds : List Dec} (hl : ds.length = trCount k) {m : Option Int} (hm : SysOk m) :
    TransText k (join [' '] (trclWords ds m)) (trclWords ds m) ∧
    readTrans k (trclWords ds m) = .ok (.sc (.trans k (ds.map (fun d => .num (.fin d))) (m.map .num))) := by
  cases m with
  | none =>
    have : trclWords ds none = ds.map Dec.str := by simp [trclWords]
    rw [this]
    exact ⟨(pieces_text hl none).2, pieces_read hl hm _ (.inr ⟨rfl, rfl⟩)⟩
  | some n =>
    have : trclWords ds (some n) = ds.map Dec.str ++ [sysText (some n)] := rfl
    rw [this]
    exact ⟨(pieces_text hl (some n)).1, pieces_read hl hm _ (.inl rfl)⟩

theorem trcl_word (star : Bool) : TrclWord star ((if star then ['*'] else []) ++ c!"trcl") := ⟨_, by decide, rfl⟩

/-- Reading one class. -/
theorem trcl_one {c : Cls} {k : Nat} (ok : TrclOk c k) {star : Bool} {hd : Str} {ws ps : List Str} (hw : Words (hd :: ws)) (h : TrclWord star hd)
    (hne : ws ≠ []) (ht : TransText k (join [' '] ws) ps) (s : Str) (hs : preprocess s = hd ++ enc ws) :
    unionParse [c] s = readTrcl c star k ps := by
  obtain ⟨x, hm, hc, -⟩ := (trcl_match ok.toTrclCls hd ws hw).2 _ ps (trcl_head h) hne ht
  unfold unionParse
  rw [hs, firstMatch_hit hm rfl]
  exact trcl_build ok star ws ps (fun w h => hw w (by simp [h])) hne ht _ x hc

end Inp
